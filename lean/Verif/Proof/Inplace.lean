import Verif.Proof.Contig
/-!
# Parsers over memory, without the distinction between borrowed and copied

`Inplace` is `Contig` with lists instead of `Cow`s. The two agree (`Displays`) because the only operation that tells a borrowed value from a copy,
`split_at`, is only ever applied to bytes, and these are always borrowed.
-/
namespace Perf
open ParserM

/-- A parser over one piece of borrowed memory. -/
def Inplace (α : Type) : Type := Flat → Except Fault (α × Flat)

namespace Inplace
variable {α γ T : Type}

protected def pure (a : α) : Inplace α := fun f => .ok (a, f)

protected def bind (m : Inplace α) (k : α → Inplace γ) : Inplace γ := fun f =>
  match m f with
  | .error e => .error e
  | .ok (a, f') => k a f'

instance : Monad Inplace where
  pure := Inplace.pure
  bind := Inplace.bind

def fault (e : Fault) : Inplace α := fun _ => .error e
def config : Inplace ParseConfig := fun f => .ok (f.cfg, f)

def take (n : Nat) : Inplace (List Byte) := fun f =>
  if n ≤ f.s.bytes.length then .ok (f.s.bytes.take n, f.adv n) else .error (.err .eof)

def array (n : Nat) : Inplace (List Byte) := fun f =>
  if f.s.bytes = [] then .error (.err .eof) else take n f

def rest : Inplace (List Byte) := fun f =>
  if f.s.bytes = [] then .error (.err .eof) else .ok (f.s.bytes, f.adv f.s.bytes.length)

def restTrimNul : Inplace (List Byte) := do
  let bs ← rest
  pure (bs.take (trimNul bs).length)

def padded (padding : Nat) (m : Inplace α) : Inplace α := fun f =>
  if padding = 0 then .error .panic
  else match m f with
    | .error e => .error e
    | .ok (a, f') =>
      let n := (f'.off - f.off) % padding
      if n = 0 then .ok (a, f')
      else match take (padding - n) f' with
        | .error e => .error e
        | .ok (_, f'') => .ok (a, f'')

def repeated (item : Inplace T) : Nat → Inplace (List T)
  | 0 => pure []
  | n + 1 => do
    let x ← item
    let xs ← repeated item n
    pure (x :: xs)

def slice (e : Elem T) (item : Inplace T) (n : Nat) : Inplace (List T) := fun f =>
  if f.cfg.endian.isNative then
    if n * e.size ≥ usizeLimit then
      .error (.err (.custom .invalidRecord "array length in bytes larger than usize::MAX"))
    else if f.s.bytes = [] then .error (.err .eof)
    else if n * e.size ≤ f.s.bytes.length then
      if n * e.size = 0 ∨ f.s.al.aligned = true then
        .ok (e.decodeAll (fromOrder f.cfg.host 64) n (f.s.bytes.take (n * e.size)), f.adv (n * e.size))
      else repeated item n (f.adv (n * e.size))
    else repeated item n f
  else repeated item n f

instance : ParserM Inplace List where
  config := config
  fail e := fault (.err e)
  array := array
  bytes := array
  rest := rest
  restTrimNul := restTrimNul
  padded := padded
  slice := slice
  elems := id
  cowSplitAt c n := if n ≤ c.length then pure (c.take n, c.drop n) else fault .panic
  cowTruncate c n := c.take n
  cowOwned := id

end Inplace

/-- `t` returns what `s` returns, seen through `v`. -/
def Displays {α α' : Type} (v : α → α') (s : Contig α) (t : Inplace α') : Prop := ∀ f, t f = (s f).map fun x => (v x.1, x.2)

namespace Displays
variable {α α' γ γ' T : Type}

theorem pure {v : α → α'} (a : α) : Displays v (Pure.pure a : Contig α) (Pure.pure (v a) : Inplace α') := fun _ => rfl
theorem pure' {v : α → α'} {a : α} {b : α'} (h : b = v a) : Displays v (Pure.pure a : Contig α) (Pure.pure b : Inplace α') := h ▸ pure a
theorem fault {v : α → α'} (e : Fault) : Displays v (Contig.fault e : Contig α) (Inplace.fault e : Inplace α') := fun _ => rfl
theorem fail {v : α → α'} (e : ParseError) : Displays v (ParserM.fail e : Contig α) (ParserM.fail e : Inplace α') := fun _ => rfl
theorem config : Displays id (ParserM.config : Contig ParseConfig) (ParserM.config : Inplace ParseConfig) := fun _ => rfl

theorem bind {v : α → α'} {w : γ → γ'} {s : Contig α} {t : Inplace α'} {k : α → Contig γ} {k' : α' → Inplace γ'} (h : Displays v s t)
    (hk : ∀ a, Displays w (k a) (k' (v a))) : Displays w (s >>= k) (t >>= k') := by
  intro f
  show Inplace.bind t k' f = (Contig.bind s k f).map _
  unfold Inplace.bind Contig.bind
  rw [h f]
  rcases s f with e | ⟨a, g⟩
  · rfl
  · exact hk a g

theorem ite {v : α → α'} {c : Prop} [Decidable c] {s s' : Contig α} {t t' : Inplace α'} (h : Displays v s t) (h' : Displays v s' t') :
    Displays v (if c then s else s') (if c then t else t') := by
  split
  · exact h
  · exact h'

theorem take (n : Nat) : Displays id (Contig.take n) (Inplace.take n) := by
  intro f
  unfold Contig.take Inplace.take
  split <;> rfl

theorem array (n : Nat) : Displays id (ParserM.array n : Contig (List Byte)) (ParserM.array n : Inplace (List Byte)) := by
  intro f
  show Inplace.array n f = (Contig.array n f).map _
  unfold Contig.array Inplace.array
  split
  · rfl
  · exact take n f

theorem bytes (n : Nat) : Displays Cow.data (ParserM.bytes n : Contig (Cow Byte)) (ParserM.bytes n : Inplace (List Byte)) := by
  intro f
  show Inplace.array n f = (Contig.bind (Contig.array n) _ f).map _
  have := array n f
  show _ = Except.map _ _
  rw [show Inplace.array n f = (Contig.array n f).map _ from this]
  unfold Contig.bind
  rcases Contig.array n f with e | ⟨a, g⟩ <;> rfl

theorem rest : Displays Cow.data (ParserM.rest : Contig (Cow Byte)) (ParserM.rest : Inplace (List Byte)) := by
  intro f
  show Inplace.rest f = (Contig.rest f).map _
  unfold Contig.rest Inplace.rest
  split <;> rfl

theorem truncate_data (c : Cow T) (n : Nat) : (c.truncate n).data = c.data.take n := by
  cases c with
  | owned d => rfl
  | borrowed d =>
    unfold Cow.truncate
    dsimp only
    split
    · exact (List.take_of_length_le (Nat.le_of_lt ‹_›)).symm
    · rfl

theorem restTrimNul : Displays Cow.data (ParserM.restTrimNul : Contig (Cow Byte)) (ParserM.restTrimNul : Inplace (List Byte)) :=
  bind (v := Cow.data) rest fun c => pure' (truncate_data c _).symm

theorem padded (n : Nat) {v : α → α'} {s : Contig α} {t : Inplace α'} (h : Displays v s t) :
    Displays v (ParserM.padded n s : Contig α) (ParserM.padded n t : Inplace α') := by
  intro f
  show Inplace.padded n t f = (Contig.padded n s f).map _
  unfold Contig.padded Inplace.padded
  split
  · rfl
  · rw [h f]
    rcases s f with e | ⟨a, g⟩
    · rfl
    · simp only [Except.map]
      split
      · rfl
      · rw [take _ g]
        rcases Contig.take (n - (g.off - f.off) % n) g with e | ⟨b, g'⟩ <;> rfl

theorem repeated {s : Contig T} {t : Inplace T} (h : Displays id s t) : ∀ n, Displays id (Contig.repeated s n) (Inplace.repeated t n)
  | 0 => pure _
  | n + 1 => bind h fun _ => bind (repeated h n) fun _ => pure _

theorem copied {s : Contig T} {t : Inplace T} (h : Displays id s t) (n : Nat) : Displays Cow.data (Contig.copied s n) (Inplace.repeated t n) := by
  intro f
  rw [repeated h n f]
  show _ = (Contig.bind _ _ f).map _
  unfold Contig.bind
  rcases Contig.repeated s n f with e | ⟨a, g⟩ <;> rfl

theorem slice (e : Elem T) (n : Nat) {s : Contig T} {t : Inplace T} (h : Displays id s t) :
    Displays Cow.data (ParserM.slice e s n : Contig (Cow T)) (ParserM.slice e t n : Inplace (List T)) := by
  intro f
  show Inplace.slice e t n f = (Contig.slice e s n f).map _
  unfold Contig.slice Inplace.slice
  split
  · split
    · rfl
    · split
      · rfl
      · split
        · split
          · rfl
          · exact copied h n _
        · exact copied h n _
  · exact copied h n _

theorem u8 : Displays id (parseU8 : Contig U8) (parseU8 : Inplace U8) := bind (array 1) fun _ => pure _
theorem u16 : Displays id (parseU16 : Contig U16) (parseU16 : Inplace U16) := bind (array 2) fun _ => bind config fun _ => pure _
theorem u32 : Displays id (parseU32 : Contig U32) (parseU32 : Inplace U32) := bind (array 4) fun _ => bind config fun _ => pure _
theorem u64 : Displays id (parseU64 : Contig U64) (parseU64 : Inplace U64) := bind (array 8) fun _ => bind config fun _ => pure _
theorem parseIf {v : α → α'} {s : Contig α} {t : Inplace α'} (c : Bool) (h : Displays v s t) :
    Displays (Option.map v) (Perf.parseIf c s) (Perf.parseIf c t) := by
  cases c with
  | true => exact bind h fun a => pure (v := Option.map v) (some a)
  | false => exact pure (v := Option.map v) none
theorem parseIfId {s : Contig α} {t : Inplace α} (c : Bool) (h : Displays id s t) : Displays id (Perf.parseIf c s) (Perf.parseIf c t) := by
  cases c with
  | true => exact bind h fun a => pure (v := id) (some a)
  | false => exact pure (v := id) none

/-- One step of a parser. -/
macro "shows_leaf" : tactic => `(tactic| first
  | exact Displays.u64 | exact Displays.u32 | exact Displays.u16 | exact Displays.u8
  | exact Displays.config
  | exact Displays.parseIfId _ Displays.u64
  | exact Displays.parseIfId _ Displays.u32
  | exact Displays.array _ | exact Displays.bytes _ | exact Displays.rest | exact Displays.restTrimNul)

/-- Walk through a `do` block on both sides. -/
macro "shows" : tactic => `(tactic| repeat' (first
  | exact Displays.fail _
  | exact Displays.pure _
  | shows_leaf
  | refine Displays.bind (by shows_leaf) (fun _ => ?_)
  | refine Displays.ite ?_ ?_))

theorem mmap : Displays Mmap.view (parseMmap : Contig (Mmap Cow)) (parseMmap : Inplace (Mmap List)) := by unfold parseMmap; shows
theorem lost : Displays id (parseLost : Contig Lost) (parseLost : Inplace Lost) := by unfold parseLost; shows
theorem comm : Displays Comm.view (parseComm : Contig (Comm Cow)) (parseComm : Inplace (Comm List)) := by unfold parseComm; shows
theorem exit : Displays id (parseExit : Contig Exit) (parseExit : Inplace Exit) := by unfold parseExit; shows
theorem throttle : Displays id (parseThrottle : Contig Throttle) (parseThrottle : Inplace Throttle) := by unfold parseThrottle; shows
theorem mmapDetail : Displays id (parseMmapDetail : Contig MmapDetail) (parseMmapDetail : Inplace MmapDetail) := by unfold parseMmapDetail; shows
theorem mmap2 : Displays Mmap2.view (parseMmap2 : Contig (Mmap2 Cow)) (parseMmap2 : Inplace (Mmap2 List)) := by
  unfold parseMmap2
  refine bind u32 fun _ => bind u32 fun _ => bind u64 fun _ => bind u64 fun _ => bind u64 fun _ => bind mmapDetail fun _ => ?_
  shows
theorem aux : Displays id (parseAux : Contig Aux) (parseAux : Inplace Aux) := by unfold parseAux; shows
theorem itraceStart : Displays id (parseITraceStart : Contig ITraceStart) (parseITraceStart : Inplace ITraceStart) := by unfold parseITraceStart; shows
theorem lostSamples : Displays id (parseLostSamples : Contig LostSamples) (parseLostSamples : Inplace LostSamples) := by unfold parseLostSamples; shows
theorem switchCpuWide : Displays id (parseSwitchCpuWide : Contig SwitchCpuWide) (parseSwitchCpuWide : Inplace SwitchCpuWide) := by
  unfold parseSwitchCpuWide; shows
theorem namespaceEntry : Displays id (parseNamespaceEntry : Contig NamespaceEntry) (parseNamespaceEntry : Inplace NamespaceEntry) := by
  unfold parseNamespaceEntry; shows
theorem namespaces : Displays Namespaces.view (parseNamespaces : Contig (Namespaces Cow)) (parseNamespaces : Inplace (Namespaces List)) :=
  bind u32 fun _ => bind u32 fun _ => bind u64 fun _ => bind (slice _ _ namespaceEntry) fun _ => pure _
theorem ksymbol : Displays KSymbol.view (parseKSymbol : Contig (KSymbol Cow)) (parseKSymbol : Inplace (KSymbol List)) := by unfold parseKSymbol; shows
theorem bpfEvent : Displays id (parseBpfEvent : Contig BpfEvent) (parseBpfEvent : Inplace BpfEvent) := by unfold parseBpfEvent; shows
theorem cgroup : Displays CGroup.view (parseCGroup : Contig (CGroup Cow)) (parseCGroup : Inplace (CGroup List)) := by unfold parseCGroup; shows
theorem auxOutputHwId : Displays id (parseAuxOutputHwId : Contig AuxOutputHwId) (parseAuxOutputHwId : Inplace AuxOutputHwId) := by
  unfold parseAuxOutputHwId; shows

/-- The bytes are borrowed, and borrowed bytes are split as lists are. -/
theorem textPoke : Displays TextPoke.view (parseTextPoke : Contig (TextPoke Cow)) (parseTextPoke : Inplace (TextPoke List)) := by
  unfold parseTextPoke
  refine bind u64 fun addr => bind u16 fun oldLen => bind u16 fun newLen => ?_
  intro f
  dsimp only [id]
  have h := array (roundUpMod (oldLen.toNat + newLen.toNat) 4 8) f
  show Inplace.bind (Inplace.array _) _ f = (Contig.bind (Contig.bind (Contig.array _) _) _ f).map _
  unfold Inplace.bind Contig.bind
  rw [show Inplace.array _ f = (Contig.array _ f).map _ from h]
  rcases Contig.array (roundUpMod (oldLen.toNat + newLen.toNat) 4 8) f with e | ⟨bs, g⟩
  · rfl
  · dsimp only [Except.map, id]
    show Inplace.bind (ParserM.cowSplitAt bs oldLen.toNat : Inplace _) _ g = (Contig.bind (ParserM.cowSplitAt (Cow.borrowed bs) oldLen.toNat : Contig _) _ g).map _
    simp only [ParserM.cowSplitAt, Cow.splitAt]
    by_cases hl : oldLen.toNat ≤ bs.length
    · rw [if_pos hl, if_pos hl]
      show Except.ok (_, g) = Except.ok (_, g)
      simp only [TextPoke.view, ParserM.cowTruncate, truncate_data]
      rfl
    · rw [if_neg hl, if_neg hl]; rfl

theorem cpu : Displays id (parseCpu : Contig U32) (parseCpu : Inplace U32) := by unfold parseCpu; shows
theorem sampleId : Displays id (parseSampleId : Contig SampleId) (parseSampleId : Inplace SampleId) := by
  unfold parseSampleId
  refine bind config fun c => ite (pure _) ?_
  refine bind (parseIfId _ u32) fun _ => bind (parseIfId _ u32) fun _ => bind (parseIfId _ u64) fun _ => bind (parseIfId _ u64) fun _ =>
    bind (parseIfId _ u64) fun _ => bind (parseIfId _ cpu) fun _ => ?_
  shows
theorem readValue : Displays id (parseReadValue : Contig ReadValue) (parseReadValue : Inplace ReadValue) := by unfold parseReadValue; shows
theorem readGroup : Displays ReadGroup.view (parseReadGroup : Contig (ReadGroup Cow)) (parseReadGroup : Inplace (ReadGroup List)) := by
  unfold parseReadGroup
  refine bind config fun _ => ite (fail _) (ite (fail _) (bind u64 fun _ => bind (parseIfId _ u64) fun _ => bind (parseIfId _ u64) fun _ => ?_))
  exact ite (fail _) (bind (slice _ _ u64) fun _ => pure _)
theorem read : Displays id (parseRead : Contig Read) (parseRead : Inplace Read) := bind u32 fun _ => bind u32 fun _ => bind readValue fun _ => pure _
theorem branchEntry : Displays id (parseBranchEntry : Contig BranchEntry) (parseBranchEntry : Inplace BranchEntry) := by unfold parseBranchEntry; shows
theorem registers (mask : U64) : Displays Registers.view (parseRegisters mask : Contig (Registers Cow)) (parseRegisters mask : Inplace (Registers List)) :=
  bind u64 fun _ => bind (slice _ _ u64) fun _ => pure _
theorem registersUser : Displays Registers.view (parseRegistersUser : Contig (Registers Cow)) (parseRegistersUser : Inplace (Registers List)) :=
  bind config fun _ => registers _
theorem registersIntr : Displays Registers.view (parseRegistersIntr : Contig (Registers Cow)) (parseRegistersIntr : Inplace (Registers List)) :=
  bind config fun _ => registers _
theorem values : Displays ReadGroup.view (parseValues : Contig (ReadGroup Cow)) (parseValues : Inplace (ReadGroup List)) :=
  bind config fun _ => ite readGroup (bind readValue fun _ => pure _)
theorem callchain : Displays Cow.data (parseCallchain : Contig (Cow U64)) (parseCallchain : Inplace (List U64)) := bind u64 fun _ => slice _ _ u64
theorem rawInner : Displays Cow.data (parseRawInner : Contig (Cow Byte)) (parseRawInner : Inplace (List Byte)) := bind u32 fun _ => bytes _
theorem lbr (b : Bool) : Displays (fun x => (x.1.data, x.2)) (parseLbr b : Contig (Cow BranchEntry × Option U64)) (parseLbr b : Inplace (List BranchEntry × Option U64)) :=
  bind u64 fun _ => bind (parseIfId _ u64) fun _ => bind (slice _ _ branchEntry) fun _ => pure _
theorem dynSize (s : U64) : Displays id (parseDynSize s : Contig U64) (parseDynSize s : Inplace U64) := ite (pure _) u64
theorem stackUser : Displays Cow.data (parseStackUser : Contig (Cow Byte)) (parseStackUser : Inplace (List Byte)) :=
  bind u64 fun s => bind (bytes _) fun d => bind (dynSize s) fun _ => ite (fail _) (pure' (truncate_data d _).symm)
theorem auxData : Displays Cow.data (parseAuxData : Contig (Cow Byte)) (parseAuxData : Inplace (List Byte)) := bind u64 fun _ => bytes _

theorem sample : Displays Sample.view (parseSample : Contig (Sample Cow)) (parseSample : Inplace (Sample List)) := by
  unfold parseSample
  refine bind config fun _ => bind (parseIfId _ u64) fun _ => bind (parseIfId _ u64) fun _ => bind (parseIfId _ u32) fun _ =>
    bind (parseIfId _ u32) fun _ => bind (parseIfId _ u64) fun _ => bind (parseIfId _ u64) fun _ => bind (parseIfId _ u64) fun _ =>
    bind (parseIfId _ u64) fun _ => bind (parseIfId _ cpu) fun _ => bind (parseIfId _ u64) fun _ => bind (parseIf _ values) fun _ =>
    bind (parseIf _ callchain) fun _ => bind (parseIf _ (padded 8 rawInner)) fun _ => bind (parseIf _ (lbr _)) fun lbr =>
    bind (parseIf _ registersUser) fun _ => bind (parseIf _ stackUser) fun _ => bind (parseIfId _ u64) fun _ => bind (parseIfId _ u64) fun _ =>
    bind (parseIfId _ u64) fun _ => bind (parseIf _ registersIntr) fun _ => bind (parseIfId _ u64) fun _ => bind (parseIfId _ u64) fun _ =>
    bind (parseIfId _ u64) fun _ => bind (parseIfId _ u64) fun _ => bind (parseIf _ auxData) fun _ => pure' ?_
  cases lbr <;> rfl

/-- A body of any type. -/
theorem body (ty : U32) : Displays Record.view (parseBody ty : Contig (Record Cow)) (parseBody ty : Inplace (Record List)) := by
  unfold parseBody
  split
  · exact bind mmap fun _ => pure _
  · exact bind lost fun _ => pure _
  · exact bind comm fun _ => pure _
  · exact bind exit fun _ => pure _
  · exact bind throttle fun _ => pure _
  · exact bind throttle fun _ => pure _
  · exact bind exit fun _ => pure _
  · exact bind read fun _ => pure _
  · exact bind sample fun _ => pure _
  · exact bind mmap2 fun _ => pure _
  · exact bind aux fun _ => pure _
  · exact bind itraceStart fun _ => pure _
  · exact bind lostSamples fun _ => pure _
  · exact bind switchCpuWide fun _ => pure _
  · exact bind namespaces fun _ => pure _
  · exact bind ksymbol fun _ => pure _
  · exact bind bpfEvent fun _ => pure _
  · exact bind cgroup fun _ => pure _
  · exact bind textPoke fun _ => pure _
  · exact bind auxOutputHwId fun _ => pure _
  · exact bind rest fun _ => pure _

end Displays
end Perf
