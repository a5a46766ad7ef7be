import Verif.Proof.Inv
/-!
# What the containers inside a parsed record are, for any buffer whatsoever

`Record.All QB QL r`: every byte string in `r` satisfies `QB` and every other list satisfies `QL`.
-/
namespace Perf
open ParserM

/-! ## All the containers in a record -/

/-- A predicate on what is there, if anything. -/
def OptAll {α : Type} (Q : α → Prop) (x : Option α) : Prop := ∀ a, x = some a → Q a

section
variable (QB : Cow Byte → Prop) (QL : ∀ {T : Type}, Cow T → Prop)

/-- The containers in a `Sample`. -/
structure Sample.All (s : Sample Cow) : Prop where
  values : OptAll (fun g => QL g.data) s.values
  callchain : OptAll (fun c => QL c) s.callchain
  raw : OptAll QB s.raw
  lbr : OptAll (fun c => QL c) s.lbr
  regsUser : OptAll (fun r => QL r.regs) s.regsUser
  stackUser : OptAll QB s.stackUser
  regsIntr : OptAll (fun r => QL r.regs) s.regsIntr
  aux : OptAll QB s.aux

/-- The containers in a `Record`. -/
def Record.All : Record Cow → Prop
  | .mmap r => QB r.filename
  | .comm r => QB r.comm
  | .sample r => r.All QB QL
  | .mmap2 r => QB r.filename
  | .namespaces r => QL r.namespaces
  | .ksymbol r => QB r.name
  | .cgroup r => QB r.path
  | .textPoke r => QB r.oldBytes ∧ QB r.newBytes
  | .unknown _ d => QB d
  | _ => True
end

theorem Record.All.mono {QB QB' : Cow Byte → Prop} {QL : ∀ {T : Type}, Cow T → Prop} (h : ∀ c, QB c → QB' c) {r : Record Cow}
    (hr : r.All QB QL) : r.All QB' QL := by
  cases r with
  | sample s =>
    exact ⟨hr.values, hr.callchain, fun a ha => h _ (hr.raw a ha), hr.lbr, hr.regsUser, fun a ha => h _ (hr.stackUser a ha),
      hr.regsIntr, fun a ha => h _ (hr.aux a ha)⟩
  | textPoke t => exact ⟨h _ hr.1, h _ hr.2⟩
  | namespaces n => exact hr
  | mmap r => exact h _ hr
  | mmap2 r => exact h _ hr
  | comm r => exact h _ hr
  | ksymbol r => exact h _ hr
  | cgroup r => exact h _ hr
  | unknown t d => exact h _ hr
  | _ => exact trivial

/-! ## From the operations to the records -/

section
variable {β : Type} [ParseBuf β]

/-- The parser operations return containers as described. -/
structure Keeps (I : Parser β → Prop) (QB : Cow Byte → Prop) (QL : ∀ {T : Type}, Cow T → Prop) : Prop where
  stable : Stable I
  bytes : ∀ n, Inv I QB (P.bytes n : P β (Cow Byte))
  rest : Inv I QB (P.rest : P β (Cow Byte))
  slice : ∀ {T : Type} (e : Elem T) (item : P β T) (n : Nat), Inv I (fun _ => True) item →
    Inv I (fun c => QL c) (P.slice e item n)
  owned : ∀ {T : Type} (l : List T), QL (Cow.owned l)
  truncate : ∀ c n, QB c → QB (c.truncate n)
  split : ∀ c n a b, QB c → c.splitAt n = some (a, b) → QB a ∧ QB b

variable {I : Parser β → Prop} {QB : Cow Byte → Prop} {QL : ∀ {T : Type}, Cow T → Prop}

theorem Keeps.restTrimNul (k : Keeps I QB QL) : Inv I QB (ParserM.restTrimNul : P β (Cow Byte)) :=
  Inv.bind k.rest fun c hc => Inv.pure (k.truncate c _ hc)

theorem Keeps.opt {α : Type} {Q : α → Prop} (c : Bool) {m : P β α} (h : Inv I Q m) :
    Inv I (OptAll Q) (Perf.parseIf c m) :=
  (Inv.parseIf c fun _ => h).mono fun _ h => h.2

theorem Keeps.skipIf {α : Type} (c : Bool) {m : P β α} (h : Inv I (fun _ => True) m) :
    Inv I (fun _ => True) (Perf.parseIf c m) :=
  (Keeps.opt c h).mono fun _ _ => trivial

theorem Keeps.u64s (k : Keeps I QB QL) (n : Nat) : Inv I (fun c => QL c) (ParserM.slice U64.elem parseU64 n : P β (Cow U64)) :=
  k.slice _ _ _ (Inv.u64 k.stable)

theorem Keeps.cpu (k : Keeps I QB QL) : Inv I (fun _ => True) (parseCpu : P β U32) :=
  Inv.skip (Inv.u32 k.stable) fun _ => Inv.skip (Inv.u32 k.stable) fun _ => Inv.pure trivial

theorem Keeps.readValue (k : Keeps I QB QL) : Inv I (fun _ => True) (parseReadValue : P β ReadValue) := by
  refine Inv.skip Inv.config fun c => ?_
  refine Inv.ite (fun _ => Inv.fail _) fun _ => Inv.ite (fun _ => Inv.fail _) fun _ => ?_
  exact Inv.skip (Inv.u64 k.stable) fun _ => Inv.skip (Keeps.skipIf _ (Inv.u64 k.stable)) fun _ =>
    Inv.skip (Keeps.skipIf _ (Inv.u64 k.stable)) fun _ => Inv.skip (Keeps.skipIf _ (Inv.u64 k.stable)) fun _ =>
    Inv.skip (Keeps.skipIf _ (Inv.u64 k.stable)) fun _ => Inv.pure trivial

theorem Keeps.readGroup (k : Keeps I QB QL) : Inv I (fun g => QL g.data) (parseReadGroup : P β (ReadGroup Cow)) := by
  refine Inv.skip Inv.config fun c => ?_
  refine Inv.ite (fun _ => Inv.fail _) fun _ => Inv.ite (fun _ => Inv.fail _) fun _ => ?_
  refine Inv.skip (Inv.u64 k.stable) fun _ => Inv.skip (Keeps.skipIf _ (Inv.u64 k.stable)) fun _ =>
    Inv.skip (Keeps.skipIf _ (Inv.u64 k.stable)) fun _ => ?_
  refine Inv.ite (fun _ => Inv.fail _) fun _ => Inv.bind (k.u64s _) fun _ h => Inv.pure h

theorem Keeps.values (k : Keeps I QB QL) : Inv I (fun g => QL g.data) (parseValues : P β (ReadGroup Cow)) := by
  refine Inv.skip Inv.config fun c => Inv.ite (fun _ => k.readGroup) fun _ => ?_
  exact Inv.skip k.readValue fun _ => Inv.pure (k.owned _)

theorem Keeps.registers (k : Keeps I QB QL) (mask : U64) :
    Inv I (fun r => QL r.regs) (parseRegisters mask : P β (Registers Cow)) :=
  Inv.skip (Inv.u64 k.stable) fun _ => Inv.bind (k.u64s _) fun _ h => Inv.pure h

theorem Keeps.lbr (k : Keeps I QB QL) (b : Bool) :
    Inv I (fun r => QL r.1) (parseLbr b : P β (Cow BranchEntry × Option U64)) :=
  Inv.skip (Inv.u64 k.stable) fun _ => Inv.skip (Keeps.skipIf _ (Inv.u64 k.stable)) fun _ =>
    Inv.bind (k.slice _ _ _ (Inv.skip (Inv.u64 k.stable) fun _ => Inv.skip (Inv.u64 k.stable) fun _ =>
      Inv.skip (Inv.u64 k.stable) fun _ => Inv.pure trivial)) fun _ h => Inv.pure h

theorem Keeps.stackUser (k : Keeps I QB QL) : Inv I QB (parseStackUser : P β (Cow Byte)) := by
  refine Inv.skip (Inv.u64 k.stable) fun _ => Inv.bind (k.bytes _) fun c hc => ?_
  refine Inv.skip (Inv.ite (fun _ => Inv.pure trivial) fun _ => Inv.u64 k.stable) fun _ => ?_
  exact Inv.ite (fun _ => Inv.fail _) fun _ => Inv.pure (k.truncate _ _ hc)

theorem Keeps.sample (k : Keeps I QB QL) : Inv I (fun s => s.All QB QL) (parseSample : P β (Sample Cow)) := by
  have u64 : ∀ c, Inv I (fun _ => True) (Perf.parseIf c (parseU64 : P β U64)) := fun c => Keeps.skipIf c (Inv.u64 k.stable)
  have u32 : ∀ c, Inv I (fun _ => True) (Perf.parseIf c (parseU32 : P β U32)) := fun c => Keeps.skipIf c (Inv.u32 k.stable)
  have dyn : ∀ c : U64 → P β (Cow Byte), (∀ x, Inv I QB (c x)) → Inv I QB ((parseU64 : P β U64) >>= c) := fun c h =>
    Inv.skip (Inv.u64 k.stable) h
  have raw : Inv I QB (ParserM.padded 8 parseRawInner : P β (Cow Byte)) :=
    Inv.padded k.stable 8 (Inv.skip (Inv.u32 k.stable) fun _ => k.bytes _)
  unfold parseSample
  refine Inv.skip Inv.config fun cfg => ?_
  refine Inv.skip (u64 _) fun _ => ?_
  refine Inv.skip (u64 _) fun _ => ?_
  refine Inv.skip (u32 _) fun _ => ?_
  refine Inv.skip (u32 _) fun _ => ?_
  refine Inv.skip (u64 _) fun _ => ?_
  refine Inv.skip (u64 _) fun _ => ?_
  refine Inv.skip (u64 _) fun _ => ?_
  refine Inv.skip (u64 _) fun _ => ?_
  refine Inv.skip (Keeps.skipIf _ k.cpu) fun _ => ?_
  refine Inv.skip (u64 _) fun _ => ?_
  refine Inv.bind (Keeps.opt _ k.values) fun _ hval => ?_
  refine Inv.bind (Keeps.opt _ (Inv.skip (Inv.u64 k.stable) fun _ => k.u64s _)) fun _ hcc => ?_
  refine Inv.bind (Keeps.opt _ raw) fun _ hraw => ?_
  refine Inv.bind (Keeps.opt _ (k.lbr _)) fun _ hlbr => ?_
  refine Inv.bind (Keeps.opt _ (Inv.skip Inv.config fun _ => k.registers _)) fun _ hru => ?_
  refine Inv.bind (Keeps.opt _ k.stackUser) fun _ hst => ?_
  refine Inv.skip (u64 _) fun _ => ?_
  refine Inv.skip (u64 _) fun _ => ?_
  refine Inv.skip (u64 _) fun _ => ?_
  refine Inv.bind (Keeps.opt _ (Inv.skip Inv.config fun _ => k.registers _)) fun _ hri => ?_
  refine Inv.skip (u64 _) fun _ => ?_
  refine Inv.skip (u64 _) fun _ => ?_
  refine Inv.skip (u64 _) fun _ => ?_
  refine Inv.skip (u64 _) fun _ => ?_
  refine Inv.bind (Keeps.opt _ (dyn _ fun _ => k.bytes _)) fun _ haux => ?_
  refine Inv.pure ⟨hval, hcc, hraw, ?_, hru, hst, hri, haux⟩
  intro a ha
  simp only [Option.map_eq_some_iff] at ha
  obtain ⟨x, hx, rfl⟩ := ha
  exact hlbr x hx

theorem Keeps.cowSplitAt (k : Keeps I QB QL) (c : Cow Byte) (n : Nat) (hc : QB c) :
    Inv I (fun r => QB r.1 ∧ QB r.2) (ParserM.cowSplitAt c n : P β (Cow Byte × Cow Byte)) := by
  simp only [ParserM.cowSplitAt]
  split
  · rename_i r hr
    exact Inv.pure (k.split c n r.1 r.2 hc hr)
  · exact Inv.fault _

theorem Keeps.textPoke (k : Keeps I QB QL) :
    Inv I (fun r => QB r.oldBytes ∧ QB r.newBytes) (parseTextPoke : P β (TextPoke Cow)) := by
  refine Inv.skip (Inv.u64 k.stable) fun _ => Inv.skip (Inv.u16 k.stable) fun _ => Inv.skip (Inv.u16 k.stable) fun _ => ?_
  refine Inv.bind (k.bytes _) fun c hc => ?_
  refine Inv.bind (Q := fun r => QB r.1 ∧ QB r.2) ?_ fun r hr => Inv.pure ⟨hr.1, k.truncate _ _ hr.2⟩
  exact k.cowSplitAt c _ hc

/-- Every container in what `parseBody` returns. -/
theorem Keeps.body (k : Keeps I QB QL) (ty : U32) : Inv I (fun r => r.All QB QL) (parseBody ty : P β (Record Cow)) := by
  have u64 := Inv.u64 k.stable
  have u32 := Inv.u32 k.stable
  have u16 := Inv.u16 k.stable
  have u8 := Inv.u8 k.stable
  have detail : Inv I (fun _ => True) (parseMmapDetail : P β MmapDetail) := by
    refine Inv.skip Inv.config fun _ => Inv.ite (fun _ => ?_) fun _ => ?_
    · exact Inv.skip u8 fun _ => Inv.skip u8 fun _ => Inv.skip u16 fun _ => Inv.skip (Inv.array k.stable _) fun _ =>
        Inv.ite (fun _ => Inv.fail _) fun _ => Inv.pure trivial
    · exact Inv.skip u32 fun _ => Inv.skip u32 fun _ => Inv.skip u64 fun _ => Inv.skip u64 fun _ => Inv.pure trivial
  have throttle : Inv I (fun _ => True) (parseThrottle : P β Throttle) :=
    Inv.skip u64 fun _ => Inv.skip u64 fun _ => Inv.skip u64 fun _ => Inv.pure trivial
  have exit : Inv I (fun _ => True) (parseExit : P β Exit) :=
    Inv.skip u32 fun _ => Inv.skip u32 fun _ => Inv.skip u32 fun _ => Inv.skip u32 fun _ => Inv.skip u64 fun _ =>
      Inv.pure trivial
  unfold parseBody
  split
  · exact Inv.bind (Q := fun r : Mmap Cow => QB r.filename) (Inv.skip u32 fun _ => Inv.skip u32 fun _ => Inv.skip u64 fun _ => Inv.skip u64 fun _ =>
      Inv.skip u64 fun _ => Inv.bind k.restTrimNul fun _ h => Inv.pure h) fun _ h => Inv.pure h
  · exact Inv.skip (Inv.skip u64 fun _ => Inv.skip u64 fun _ => Inv.pure trivial) fun _ => Inv.pure trivial
  · exact Inv.bind (Q := fun r : Comm Cow => QB r.comm) (Inv.skip u32 fun _ => Inv.skip u32 fun _ => Inv.bind k.restTrimNul fun _ h => Inv.pure h) fun _ h =>
      Inv.pure h
  · exact Inv.skip exit fun _ => Inv.pure trivial
  · exact Inv.skip throttle fun _ => Inv.pure trivial
  · exact Inv.skip throttle fun _ => Inv.pure trivial
  · exact Inv.skip exit fun _ => Inv.pure trivial
  · exact Inv.skip (Inv.skip u32 fun _ => Inv.skip u32 fun _ => Inv.skip k.readValue fun _ => Inv.pure trivial) fun _ =>
      Inv.pure trivial
  · exact Inv.bind k.sample fun _ h => Inv.pure h
  · exact Inv.bind (Q := fun r : Mmap2 Cow => QB r.filename) (Inv.skip u32 fun _ => Inv.skip u32 fun _ => Inv.skip u64 fun _ => Inv.skip u64 fun _ =>
      Inv.skip u64 fun _ => Inv.skip detail fun _ => Inv.skip u32 fun _ => Inv.skip u32 fun _ =>
      Inv.bind k.restTrimNul fun _ h => Inv.pure h) fun _ h => Inv.pure h
  · exact Inv.skip (Inv.skip u64 fun _ => Inv.skip u64 fun _ => Inv.skip u64 fun _ => Inv.pure trivial) fun _ =>
      Inv.pure trivial
  · exact Inv.skip (Inv.skip u32 fun _ => Inv.skip u32 fun _ => Inv.pure trivial) fun _ => Inv.pure trivial
  · exact Inv.skip (Inv.skip u64 fun _ => Inv.pure trivial) fun _ => Inv.pure trivial
  · exact Inv.skip (Inv.skip u32 fun _ => Inv.skip u32 fun _ => Inv.skip Inv.config fun _ =>
      Inv.ite (fun _ => Inv.pure trivial) fun _ => Inv.pure trivial) fun _ => Inv.pure trivial
  · exact Inv.bind (Q := fun r : Namespaces Cow => QL r.namespaces) (Inv.skip u32 fun _ => Inv.skip u32 fun _ => Inv.skip u64 fun _ => Inv.bind (k.slice _ _ _
      (Inv.skip u64 fun _ => Inv.skip u64 fun _ => Inv.pure trivial)) fun _ h => Inv.pure h) fun _ h => Inv.pure h
  · exact Inv.bind (Q := fun r : KSymbol Cow => QB r.name) (Inv.skip u64 fun _ => Inv.skip u32 fun _ => Inv.skip u16 fun _ => Inv.skip u16 fun _ =>
      Inv.bind k.restTrimNul fun _ h => Inv.pure h) fun _ h => Inv.pure h
  · exact Inv.skip (Inv.skip u16 fun _ => Inv.skip u16 fun _ => Inv.skip u32 fun _ => Inv.skip (Inv.array k.stable _) fun _ =>
      Inv.pure trivial) fun _ => Inv.pure trivial
  · exact Inv.bind (Q := fun r : CGroup Cow => QB r.path) (Inv.skip u64 fun _ => Inv.bind k.restTrimNul fun _ h => Inv.pure h) fun _ h => Inv.pure h
  · exact Inv.bind k.textPoke fun _ h => Inv.pure h
  · exact Inv.skip (Inv.skip u64 fun _ => Inv.pure trivial) fun _ => Inv.pure trivial
  · exact Inv.bind k.rest fun _ h => Inv.pure h

/-- What a record parser's visitor is handed. -/
theorem Keeps.dispatch {O : Type} (k : Keeps I QB QL) (v : Visitor Cow O) (md : Metadata) {p : Parser β} (hp : I p) {r : O}
    (h : (P.dispatch v md p).res = .ok r) : ∃ a : Record Cow, a.All QB QL ∧ v.apply a md = .ok r := by
  rw [P.dispatch_eq] at h
  obtain ⟨a, h1, h2⟩ := P.bind_res h
  exact ⟨a, (k.body md.ty p hp).2 a h1, h2⟩
end
end Perf
