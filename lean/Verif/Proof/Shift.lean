import Verif.Proof.Place
/-!
# How far a parser has come does not matter

A parser counts the bytes it has consumed (`TrackingParseBuf`). Starting the count elsewhere changes nothing but the count.
-/
namespace Perf
variable {β : Type} {α δ T : Type}

/-- The same parser with the count `k` further on. -/
def Parser.shift (p : Parser β) (k : Nat) : Parser β := { p with data := { p.data with offset := p.data.offset + k } }

/-- The same outcome with the count `k` further on. -/
def Out.shift (o : Out β α) (k : Nat) : Out β α := { o with st := o.st.shift k }

/-- `m` and `m'` do the same, whatever the count, and add the same to it. -/
def Shifts (m m' : P β α) : Prop := ∀ p k, m' (p.shift k) = (m p).shift k

namespace Shifts

theorem pure (a : α) : Shifts (Pure.pure a : P β α) (Pure.pure a) := fun _ _ => rfl
theorem fault (e : Fault) : Shifts (P.fault e : P β α) (P.fault e) := fun _ _ => rfl
theorem fail (e : ParseError) : Shifts (P.fail e : P β α) (P.fail e) := fun _ _ => rfl
theorem config : Shifts (P.config : P β ParseConfig) P.config := fun _ _ => rfl
theorem alloc (n : Nat) : Shifts (P.alloc n : P β Unit) (P.alloc n) := fun _ _ => rfl
theorem ofExcept (r : Except Fault α) : Shifts (P.ofExcept r : P β α) (P.ofExcept r) := fun _ _ => rfl

theorem bind {m m' : P β α} {k k' : α → P β δ} (h : Shifts m m') (hk : ∀ a, Shifts (k a) (k' a)) : Shifts (m >>= k) (m' >>= k') := by
  intro p n
  have h1 := h p n
  rcases hm : m p with ⟨r, q, l⟩
  rw [hm] at h1
  have h1 : m' (p.shift n) = ⟨r, q.shift n, l⟩ := h1
  cases r with
  | error e => rw [P.bind_err hm, P.bind_err h1]; rfl
  | ok a =>
    rw [P.bind_ok hm, P.bind_ok h1]
    have h2 := hk a q n
    rcases hq : k a q with ⟨r2, q2, l2⟩
    rw [hq] at h2
    rw [h2]
    rfl

theorem ite {c : Prop} [Decidable c] {m n m' n' : P β α} (h1 : Shifts m m') (h2 : Shifts n n') :
    Shifts (if c then m else n) (if c then m' else n') := by
  split
  · exact h1
  · exact h2

/-- Another parser is not affected. -/
theorem onChild {γ : Type} (c : Parser γ) (m : P γ α) : Shifts (P.onChild c m : P β (α × Parser γ)) (P.onChild c m) := by
  intro p k
  unfold P.onChild
  dsimp only
  generalize (m c).res = r
  cases r <;> rfl

theorem toCow (c : Chunk) : Shifts (P.toCow c : P β (Cow Byte)) (P.toCow c) := by
  unfold P.toCow
  cases c.loc with
  | temporary => exact bind (alloc _) fun _ => pure _
  | external _ => exact pure _

theorem repeatedLoop {m m' : P β T} (h : Shifts m m') : ∀ n, Shifts (P.repeatedLoop m n) (P.repeatedLoop m' n)
  | 0 => pure _
  | n + 1 => bind h fun _ => bind (repeatedLoop h n) fun _ => pure _

theorem attempt {m m' : P β α} (h : Shifts m m') : Shifts (P.attempt m) (P.attempt m') := by
  intro p k
  have h1 := h p k
  unfold P.attempt
  rw [h1]
  rcases m p with ⟨r, q, l⟩
  rcases r with e | a
  · cases e <;> rfl
  · rfl

theorem attemptOn {γ : Type} (c : Parser γ) (m : P γ α) : Shifts (P.attemptOn c m : P β _) (P.attemptOn c m) := by
  intro p k
  unfold P.attemptOn
  rcases m c with ⟨r, q, l⟩
  rcases r with e | a
  · cases e <;> rfl
  · rfl

variable [ParseBuf β]

theorem chunk : Shifts (P.chunk : P β Chunk) P.chunk := fun _ _ => rfl

theorem chunkResult : Shifts (P.chunkResult : P β (Except ParseError Chunk)) P.chunkResult := by
  intro p k
  unfold P.chunkResult
  have h1 : (ParseBuf.chunk (p.shift k).data).1 = (ParseBuf.chunk p.data).1 := rfl
  have h2 : ({ p.shift k with data := (ParseBuf.chunk (p.shift k).data).2 } : Parser β) =
    ({ p with data := (ParseBuf.chunk p.data).2 } : Parser β).shift k := rfl
  dsimp only
  rw [h2, h1]
  generalize (ParseBuf.chunk p.data).1 = r
  rcases r with e | a
  · cases e <;> rfl
  · rfl

theorem advance (n : Nat) : Shifts (P.advance n : P β Unit) (P.advance n) := by
  intro p k
  have h1 : ParseBuf.advance p.data n = (ParseBuf.advance p.data.buf n).map fun b => (⟨b, p.data.offset + n⟩ : Tracking β) := rfl
  have h2 : ParseBuf.advance (p.shift k).data n =
      (ParseBuf.advance p.data.buf n).map fun b => (⟨b, p.data.offset + k + n⟩ : Tracking β) := rfl
  unfold P.advance
  rw [h1, h2, Nat.add_right_comm]
  generalize ParseBuf.advance p.data.buf n = r
  cases r <;> rfl

theorem hint : Shifts (P.hint : P β (Option Nat)) P.hint := fun _ _ => rfl
theorem fuel : Shifts (P.fuel : P β Nat) P.fuel := fun _ _ => rfl

theorem toSliceLoop : ∀ (n len : Nat) (bs : List Byte), Shifts (P.toSliceLoop n len bs : P β (List Byte)) (P.toSliceLoop n len bs)
  | 0, _, _ => fault _
  | n + 1, len, bs => by
    unfold P.toSliceLoop
    exact ite (pure _) (bind chunk fun c => bind (advance _) fun _ => toSliceLoop n _ _)

theorem toSlice (len : Nat) : Shifts (P.toSlice len : P β (List Byte)) (P.toSlice len) := bind fuel fun n => toSliceLoop n len []

theorem ignoredLoop : ∀ (n len : Nat), Shifts (P.ignoredLoop n len : P β Unit) (P.ignoredLoop n len)
  | 0, _ => fault _
  | n + 1, len => by
    unfold P.ignoredLoop
    exact ite (pure _) (bind chunk fun c => bind (advance _) fun _ => ignoredLoop n _)

theorem bytesIgnored (len : Nat) : Shifts (P.bytesIgnored len : P β Unit) (P.bytesIgnored len) := bind fuel fun n => ignoredLoop n len

theorem cursorLoop : ∀ (n len : Nat) (cs : List Chunk), Shifts (P.cursorLoop n len cs : P β (List Chunk)) (P.cursorLoop n len cs)
  | 0, _, _ => fault _
  | n + 1, len, cs => by
    unfold P.cursorLoop
    refine ite (pure _) (bind chunk fun c => bind ?_ fun _ => bind (advance _) fun _ => cursorLoop n _ _)
    unfold P.pushChunk
    exact ite (bind (toCow _) fun _ => pure _) (pure _)

theorem splitAt (len : Nat) : Shifts (P.splitAt len : P β (Parser Cursor)) (P.splitAt len) :=
  bind (bind fuel fun n => bind (cursorLoop n len []) fun _ => pure _) fun _ => bind config fun _ => pure _

theorem safeCapacityBound (size : Nat) : Shifts (P.safeCapacityBound size : P β Nat) (P.safeCapacityBound size) :=
  ite (pure _) (bind hint fun _ => pure _)

theorem bytesSlow (len : Nat) : Shifts (P.bytesSlow len : P β (List Byte)) (P.bytesSlow len) := by
  refine bind (safeCapacityBound 1) fun x => bind (alloc _) fun _ => bind fuel fun n => ?_
  rw [Sim.bytesSlowLoop_eq]
  exact toSliceLoop _ _ _

theorem bytesDirect (len : Nat) : Shifts (P.bytesDirect len : P β (Option (Nat × List Byte))) (P.bytesDirect len) := by
  refine bind chunk fun c => ?_
  rcases c with ⟨l, x⟩
  cases l
  · exact pure _
  · exact ite (pure _) (bind (advance len) fun _ => pure _)

theorem bytes (len : Nat) : Shifts (P.bytes len : P β (Cow Byte)) (P.bytes len) := by
  refine bind (bytesDirect len) fun a => ?_
  rcases a with - | ⟨a, bs⟩
  · refine bind hint fun x => ite ?_ ?_
    · exact bind (alloc len) fun _ => bind (toSlice len) fun _ => pure _
    · exact bind (bytesSlow len) fun _ => pure _
  · exact pure _

theorem array (n : Nat) : Shifts (P.array n : P β (List Byte)) (P.array n) :=
  bind chunk fun _ => ite (toSlice n) (bind (advance n) fun _ => pure _)

/-- Only a difference of two counts is looked at. -/
theorem padded {m m' : P β α} (n : Nat) (h : Shifts m m') : Shifts (P.padded n m) (P.padded n m') := by
  unfold P.padded
  refine ite (fault _) ?_
  intro p k
  rw [P.bind_nil (show (P.offset : P β Nat) (p.shift k) = ⟨.ok (p.data.offset + k), p.shift k, []⟩ from rfl),
    P.bind_nil (show (P.offset : P β Nat) p = ⟨.ok p.data.offset, p, []⟩ from rfl)]
  have h1 := h p k
  rcases hm : m p with ⟨r, q, l⟩
  rw [hm] at h1
  have h1 : m' (p.shift k) = ⟨r, q.shift k, l⟩ := h1
  cases r with
  | error e => rw [P.bind_err hm, P.bind_err h1]; rfl
  | ok a =>
    rw [P.bind_ok hm, P.bind_ok h1]
    rw [P.bind_nil (show (P.offset : P β Nat) (q.shift k) = ⟨.ok (q.data.offset + k), q.shift k, []⟩ from rfl),
      P.bind_nil (show (P.offset : P β Nat) q = ⟨.ok q.data.offset, q, []⟩ from rfl)]
    rw [Nat.add_sub_add_right]
    have h2 : Shifts (if (q.data.offset - p.data.offset) % n = 0 then Pure.pure a
        else P.bytesIgnored (n - (q.data.offset - p.data.offset) % n) >>= fun _ => Pure.pure a : P β α) _ :=
      ite (pure a) (bind (bytesIgnored _) fun _ => pure a)
    have h3 := h2 q k
    rw [h3]
    rfl

theorem restLoop : ∀ (n : Nat) (bs : Cow Byte), Shifts (P.restLoop n bs : P β (Cow Byte)) (P.restLoop n bs)
  | 0, _ => fault _
  | n + 1, bs => by
    unfold P.restLoop
    refine bind chunkResult fun a => ?_
    rcases a with e | c
    · exact ite (pure _) (fail _)
    · exact bind (advance _) fun _ => restLoop n _

theorem rest : Shifts (P.rest : P β (Cow Byte)) P.rest :=
  bind chunk fun c => bind (toCow c) fun _ => bind (advance _) fun _ => bind fuel fun n => restLoop n _

theorem repeated {m m' : P β T} (size : Nat) (h : Shifts m m') (n : Nat) : Shifts (P.repeated size m n) (P.repeated size m' n) :=
  bind (safeCapacityBound size) fun _ => bind (alloc _) fun _ => repeatedLoop h n

theorem sliceDirect (e : Elem T) (len : Nat) : Shifts (P.sliceDirect e len : P β (Option (List T))) (P.sliceDirect e len) := by
  refine bind config fun cfg => ite (pure _) (ite (fail _) (bind (bytesDirect _) fun a => ?_))
  rcases a with - | ⟨a, bs⟩
  · exact pure _
  · exact ite (pure _) (pure _)

theorem slice {m m' : P β T} (e : Elem T) (len : Nat) (h : Shifts m m') : Shifts (P.slice e m len) (P.slice e m' len) := by
  refine bind (sliceDirect e len) fun r => ?_
  cases r with
  | none => exact bind (repeated e.size h len) fun _ => pure _
  | some x => exact pure _

theorem closed : Closed (fun {α} (m m' : P β α) => Shifts m m') where
  pure := pure
  bind := bind
  fault e _ := fault e
  config := config
  array := array
  bytes := bytes
  rest := rest
  padded := padded
  slice := slice

theorem metadataWithHeader (h : Header) : Shifts (P.metadataWithHeader h : P β (Parser Cursor × Metadata)) (P.metadataWithHeader h) := by
  unfold P.metadataWithHeader
  refine ite (fail _) (bind (splitAt _) fun rp => ite (pure _) (ite (fail _) ?_))
  exact bind (onChild _ _) fun _ => bind (onChild _ _) fun _ => pure _

theorem metadata : Shifts (P.metadata : P β (Parser Cursor × Metadata)) P.metadata := bind closed.header metadataWithHeader

theorem recordWithHeader {O : Type} (v : Visitor Cow O) (h : Header) : Shifts (P.recordWithHeader v h : P β O) (P.recordWithHeader v h) := by
  refine bind (metadataWithHeader h) fun a => ?_
  rcases a with ⟨c, md⟩
  dsimp only
  cases c.data.buf.asSlice with
  | none => exact bind (onChild _ _) fun _ => pure _
  | some d => exact bind (onChild _ _) fun _ => pure _

theorem record {O : Type} (v : Visitor Cow O) : Shifts (P.record v : P β O) (P.record v) := bind closed.header (recordWithHeader v)

theorem attr : Shifts (P.parseAttr : P β Attr) P.parseAttr := by
  unfold P.parseAttr
  refine bind closed.u32 fun t => bind closed.u32 fun n => ite (fail _) (bind (splitAt _) fun c => bind (onChild _ _) fun _ => pure _)

theorem call (c : Call T) : Shifts (c.run β) (c.run β) := by
  have k := closed (β := β)
  cases c with
  | array n => exact array n
  | direct n => exact sliceDirect _ n
  | entries n => exact bind (slice _ n k.namespaceEntry) fun _ => pure _
  | branches n => exact bind (slice _ n k.branchEntry) fun _ => pure _
  | header => exact k.header
  | attr => exact attr
  | entry => exact k.namespaceEntry
  | branch => exact k.branchEntry
  | mmapDetail => exact k.mmapDetail
  | sampleId => exact k.sampleId
  | readValue => exact k.readValue
  | readGroup => exact bind k.readGroup fun _ => pure _
  | body ty => exact bind (k.body ty) fun _ => pure _
  | visit => exact bind (record _) fun _ => pure _
  | visitWith h => exact bind (recordWithHeader _ h) fun _ => pure _

/-- Every program over the public interface. -/
theorem prog {α : Type} (x : Prog α) : ∀ {β : Type} [ParseBuf β], Shifts (x.run β) (x.run β) := by
  induction x with
  | done a => exact pure _
  | fail e => exact fail e
  | config k ih => exact bind config fun c => ih c
  | u8 k ih => exact bind closed.u8 fun c => ih c
  | u16 k ih => exact bind closed.u16 fun c => ih c
  | u32 k ih => exact bind closed.u32 fun c => ih c
  | u64 k ih => exact bind closed.u64 fun c => ih c
  | bytes n k ih => exact bind (bytes n) fun c => ih _
  | rest k ih => exact bind rest fun c => ih _
  | restTrimNul k ih => exact bind closed.restTrimNul fun c => ih _
  | words n k ih => exact bind (slice _ n closed.u64) fun c => ih _
  | repeated size item n k ih ih' => exact bind (repeated size ih n) fun c => ih' c
  | metadata body k ih ih' => exact bind metadata fun a => bind (attemptOn _ _) fun r => ih' _ r
  | metadataWith hd body k ih ih' => exact bind (metadataWithHeader hd) fun a => bind (attemptOn _ _) fun r => ih' _ r
  | call c k ih => exact bind (call c) fun r => ih r
  | record k ih => exact bind (record _) fun r => ih _
  | attempt m k ih ih' => exact bind (attempt ih) fun r => ih' r

end Shifts

/-- A parser is a new parser over its buffer with the count further on. -/
theorem Parser.fresh (p : Parser β) : p = (Parser.new p.data.buf p.config).shift p.data.offset := by
  rcases p with ⟨c, b, o⟩
  unfold Parser.shift Parser.new
  dsimp only
  rw [Nat.zero_add]

/-- The outcome on a parser from the outcome on a new parser over the same buffer. -/
theorem Shifts.fresh {m : P β α} (h : Shifts m m) (p : Parser β) : m p = (m (Parser.new p.data.buf p.config)).shift p.data.offset := by
  conv => lhs; rw [p.fresh]
  exact h _ _

end Perf
