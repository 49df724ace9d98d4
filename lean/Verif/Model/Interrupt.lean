import Verif.Model.Cache

/-!
# `triggerReload` in small steps, interrupted by audio updates (src/IndexableFile.h:96-235)

The handler runs in the foreground; the audio interrupt reads samples (`operator[]`) at any point except inside the two
sections guarded by `AudioNoInterrupts()` (reordering the vector, resetting the statuses), which are single steps here.
-/

namespace TVP

/-- Where the handler is. -/
inductive RPhase
  /-- before the `while` test (line 111) -/
  | test
  /-- the test said yes (lines 113-194) -/
  | choose
  /-- inside `_file.read` into the front buffer for the block of sample `i`; `got` is what the read delivers (line 346) -/
  | fill (i : Int) (got : List Nat) (act : BufAction)
  /-- the read has returned (line 356) -/
  | index (i : Int) (n : Nat) (act : BufAction)
  /-- `index` is set (line 357) -/
  | size (n : Nat) (act : BufAction)
  /-- `buffer_size` is set (line 358) -/
  | status (act : BufAction)
  /-- before the reordering (lines 200-224) -/
  | order (act : BufAction)
  /-- after the loop (lines 232-234) -/
  | finish
  | done
  deriving DecidableEq, Repr

/-- Changing the front buffer. -/
def Cache.mapFront (c : Cache) (f : Buf → Buf) : Cache :=
  { c with bufs := match c.bufs with | [] => [] | b :: rest => f b :: rest }

/-- One step of the handler, called with rate `rate` and working with `r = reloadRate c rate`, or one read by an
interrupt.  The list names the blocks that the step starts to evict and to load.  While `_file.read` is in progress the
contents of the front buffer may be anything. -/
inductive RStep (g : Geo) (rate r : ℚ) : RPhase × Cache → List Int → RPhase × Cache → Prop
  | interrupt (ph : RPhase) (c : Cache) (i : Int) : RStep g rate r (ph, c) [] (ph, (c.get g i).2)
  | testYes (c : Cache) (b : Buf) (rest : List Buf) (h : c.bufs = b :: rest) (hu : b.status = .unused) :
      RStep g rate r (.test, c) [] (.choose, c)
  | testNo (c : Cache) (h : ∀ b rest, c.bufs = b :: rest → b.status ≠ .unused) : RStep g rate r (.test, c) [] (.finish, c)
  | load (c : Cache) (b : Buf) (rest : List Buf) (i : Int) (act : BufAction) (h : c.bufs = b :: rest)
      (hd : reloadDecide g c r b = .ok (some i, act)) :
      RStep g rate r (.choose, c) [b.index, u32 (i / g.B)]
        (.fill i ((c.dev.seek (u32 (2 * u32 (i - i % g.B))).toNat).read (2 * g.B)).1 act,
          { c with dev := ((c.dev.seek (u32 (2 * u32 (i - i % g.B))).toNat).read (2 * g.B)).2 })
  | noLoad (c : Cache) (b : Buf) (rest : List Buf) (act : BufAction) (h : c.bufs = b :: rest)
      (hd : reloadDecide g c r b = .ok (none, act)) : RStep g rate r (.choose, c) [] (.order act, c)
  | filling (c : Cache) (i : Int) (got : List Nat) (act : BufAction) (junk : List Nat) :
      RStep g rate r (.fill i got act, c) [] (.fill i got act, c.mapFront fun b => { b with data := junk })
  | filled (c : Cache) (i : Int) (got : List Nat) (act : BufAction) (old : List Nat) :
      RStep g rate r (.fill i got act, c) [] (.index i got.length act, c.mapFront fun b => { b with data := overlay got old })
  | setIndex (c : Cache) (i : Int) (n : Nat) (act : BufAction) :
      RStep g rate r (.index i n act, c) [] (.size n act, c.mapFront fun b => { b with index := u32 (i / g.B) })
  | setSize (c : Cache) (n : Nat) (act : BufAction) :
      RStep g rate r (.size n act, c) [] (.status act, c.mapFront fun b => { b with size := i16 n })
  | setStatus (c : Cache) (act : BufAction) :
      RStep g rate r (.status act, c) [] (.order act, c.mapFront fun b => { b with status := .loaded })
  | order (c : Cache) (act : BufAction) :
      RStep g rate r (.order act, c) [] (if act = .nop then .finish else .test, reloadReorder c act)
  | finish (c : Cache) :
      RStep g rate r (.finish, c) [] (.done,
        if c.resetStatus.prevRate = 0 then { c.resetStatus with prevRate := rate } else c.resetStatus)

/-- A run: any number of steps; the list collects the blocks evicted and loaded. -/
inductive RRun (g : Geo) (rate r : ℚ) : RPhase × Cache → List Int → RPhase × Cache → Prop
  | refl (s : RPhase × Cache) : RRun g rate r s [] s
  | step {s t u : RPhase × Cache} {ks ls : List Int} (h : RRun g rate r s ks t) (h' : RStep g rate r t ls u) :
      RRun g rate r s (ks ++ ls) u

end TVP
