import Verif.Proof.Sim
import Verif.Model.User
import Verif.Model.Attr
/-!
# Buffers that show the same bytes at different addresses

Two buffers that show the same bytes in the same pieces, give the same hints, and hold their borrowed pieces at addresses
that agree modulo 8 lead every parser through the same steps: same results, same `Cow` variants, same errors, same memory
requests, same position. In a byte order other than the host's the addresses need not agree at all. The configurations on the
two sides may differ too, as long as they are related by `A`.
-/
namespace Perf
variable {β γ : Type} {α α' δ δ' T : Type}

/-- The same kind of memory; borrowed memory at addresses equal modulo 8 when `s` asks for it. -/
def Loc.Like (s : Bool) : Loc → Loc → Prop
  | .temporary, .temporary => True
  | .external a, .external b => s = true → a % 8 = b % 8
  | _, _ => False

/-- The same bytes in similar memory. -/
def Chunk.Like (s : Bool) (c d : Chunk) : Prop := c.data = d.data ∧ c.loc.Like s d.loc

/-- The same fault, or values related by `V`. -/
def ExLike (V : α → α' → Prop) : Except Fault α → Except Fault α' → Prop
  | .ok a, .ok b => V a b
  | .error e, .error f => e = f
  | _, _ => False

/-- Both absent, or both present and related by `V`. -/
def OptLike (V : α → α' → Prop) : Option α → Option α' → Prop
  | some a, some b => V a b
  | none, none => True
  | _, _ => False

theorem ExLike.eq {a b : Except Fault α} (h : ExLike Eq a b) : a = b := by
  cases a <;> cases b <;> simp_all [ExLike]

/-- The buffer operations give similar results and keep `R`. -/
structure BufTwin [ParseBuf β] [ParseBuf γ] (s : Bool) (R : β → γ → Prop) : Prop where
  chunk : ∀ b c, R b c → ExLike (Chunk.Like s) (ParseBuf.chunk b).1 (ParseBuf.chunk c).1 ∧ R (ParseBuf.chunk b).2 (ParseBuf.chunk c).2
  advance : ∀ b c n, R b c → OptLike R (ParseBuf.advance b n) (ParseBuf.advance c n)
  hint : ∀ b c, R b c → ParseBuf.hint b = ParseBuf.hint c
  steps : ∀ b c, R b c → ParseBuf.steps b = ParseBuf.steps c

/-- Related configurations treat lists the same way. -/
class ListTwin (A : ParseConfig → ParseConfig → Prop) : Prop where
  isNative : ∀ {c d}, A c d → c.endian.isNative = d.endian.isNative
  host : ∀ {c d}, A c d → c.host = d.host

instance : ListTwin (@Eq ParseConfig) := ⟨fun h => h ▸ rfl, fun h => h ▸ rfl⟩

/-- The relation on parsers. -/
structure TwinP (s : Bool) (A : ParseConfig → ParseConfig → Prop) (R : β → γ → Prop) (p : Parser β) (q : Parser γ) : Prop where
  buf : R p.data.buf q.data.buf
  offset : p.data.offset = q.data.offset
  config : A p.config q.config
  foreign : s = false → q.config.endian.isNative = false

/-- Results related by `V`, the same memory requests, parsers still related. -/
structure TwinOut (s : Bool) (A : ParseConfig → ParseConfig → Prop) (R : β → γ → Prop) (V : α → α' → Prop) (o : Out β α) (o' : Out γ α') : Prop where
  res : ExLike V o.res o'.res
  log : o.log = o'.log
  st : TwinP s A R o.st o'.st

/-- Related parsers give related outcomes. -/
def Twin (s : Bool) (A : ParseConfig → ParseConfig → Prop) (R : β → γ → Prop) (V : α → α' → Prop) (m : P β α) (m' : P γ α') : Prop :=
  ∀ p q, TwinP s A R p q → TwinOut s A R V (m p) (m' q)

namespace Twin
variable {s : Bool} {A : ParseConfig → ParseConfig → Prop} {R : β → γ → Prop} {V : α → α' → Prop} {W : δ → δ' → Prop}

theorem pure {a : α} {b : α'} (h : V a b) : Twin s A R V (Pure.pure a : P β α) (Pure.pure b) := fun _ _ hp => ⟨h, rfl, hp⟩
theorem fault (e : Fault) : Twin s A R V (P.fault e : P β α) (P.fault e : P γ α') := fun _ _ hp => ⟨rfl, rfl, hp⟩
theorem fail (e : ParseError) : Twin s A R V (P.fail e : P β α) (P.fail e : P γ α') := fault _
theorem ofExcept {r : Except Fault α} {r' : Except Fault α'} (h : ExLike V r r') : Twin s A R V (P.ofExcept r : P β α) (P.ofExcept r') :=
  fun _ _ hp => ⟨h, rfl, hp⟩

theorem bind {m : P β α} {m' : P γ α'} {k : α → P β δ} {k' : α' → P γ δ'} (h : Twin s A R V m m')
    (hk : ∀ a b, V a b → Twin s A R W (k a) (k' b)) : Twin s A R W (m >>= k) (m' >>= k') := by
  intro p q hp
  obtain ⟨h1, h2, h3⟩ := h p q hp
  rcases hm : (m p).res with e | a <;> rcases hm' : (m' q).res with e' | b <;> rw [hm, hm'] at h1
  · obtain rfl : e = e' := h1
    rw [P.bind_err (P.run_eq _ hm), P.bind_err (P.run_eq _ hm')]
    exact ⟨rfl, h2, h3⟩
  · exact h1.elim
  · exact h1.elim
  · rw [P.bind_ok (P.run_eq _ hm), P.bind_ok (P.run_eq _ hm')]
    obtain ⟨g1, g2, g3⟩ := hk a b h1 _ _ h3
    exact ⟨g1, by show _ ++ _ = _ ++ _; rw [h2, g2], g3⟩

/-- Sequencing over a value that is the same on both sides. -/
theorem bindEq {m : P β α} {m' : P γ α} {k : α → P β δ} {k' : α → P γ δ'} (h : Twin s A R Eq m m')
    (hk : ∀ a, Twin s A R W (k a) (k' a)) : Twin s A R W (m >>= k) (m' >>= k') :=
  bind h fun a b e => by subst e; exact hk a

theorem ite {c : Prop} [Decidable c] {m n : P β α} {m' n' : P γ α'} (h1 : c → Twin s A R V m m') (h2 : ¬ c → Twin s A R V n n') :
    Twin s A R V (if c then m else n) (if c then m' else n') := by
  split
  · exact h1 ‹_›
  · exact h2 ‹_›

theorem config : Twin s A R A (P.config : P β ParseConfig) P.config := fun _ _ h => ⟨h.config, rfl, h⟩
theorem offset : Twin s A R Eq (P.offset : P β Nat) P.offset := fun _ _ h => ⟨h.offset, rfl, h⟩
theorem alloc (n : Nat) : Twin s A R Eq (P.alloc n : P β Unit) (P.alloc n) := fun _ _ h => ⟨rfl, rfl, h⟩

/-- In a foreign order the configuration says so. -/
theorem withConfig {k : ParseConfig → P β α} {k' : ParseConfig → P γ α'}
    (hk : ∀ c d : ParseConfig, A c d → (s = false → d.endian.isNative = false) → Twin s A R V (k c) (k' d)) :
    Twin s A R V (P.config >>= k) (P.config >>= k') := by
  intro p q hp
  rw [P.bind_nil (show (P.config : P β ParseConfig) p = ⟨.ok p.config, p, []⟩ from rfl),
    P.bind_nil (show (P.config : P γ ParseConfig) q = ⟨.ok q.config, q, []⟩ from rfl)]
  exact hk _ _ hp.config hp.foreign p q hp

theorem toCow {c d : Chunk} (h : c.Like s d) : Twin s A R Eq (P.toCow c : P β (Cow Byte)) (P.toCow d) := by
  rcases c with ⟨l, x⟩
  rcases d with ⟨l', y⟩
  obtain ⟨rfl, h2⟩ : x = y ∧ _ := h
  cases l <;> cases l'
  · exact bindEq (alloc _) fun _ => pure rfl
  · exact h2.elim
  · exact h2.elim
  · exact pure rfl

variable [ParseBuf β] [ParseBuf γ] (S : BufTwin s R)
include S

theorem chunk : Twin s A R (Chunk.Like s) (P.chunk : P β Chunk) P.chunk := fun _ _ h =>
  ⟨(S.chunk _ _ h.buf).1, rfl, ⟨(S.chunk _ _ h.buf).2, h.offset, h.config, h.foreign⟩⟩

theorem chunkResult : Twin s A R (fun a b => match a, b with
    | .ok c, .ok d => Chunk.Like s c d
    | .error e, .error f => e = f
    | _, _ => False) (P.chunkResult : P β (Except ParseError Chunk)) P.chunkResult := by
  intro p q h
  have h1 : ExLike (Chunk.Like s) (ParseBuf.chunk p.data).1 (ParseBuf.chunk q.data).1 := (S.chunk _ _ h.buf).1
  have h2 : TwinP s A R { p with data := (ParseBuf.chunk p.data).2 } { q with data := (ParseBuf.chunk q.data).2 } :=
    ⟨(S.chunk _ _ h.buf).2, h.offset, h.config, h.foreign⟩
  unfold P.chunkResult
  rcases e1 : (ParseBuf.chunk p.data).1 with e | c <;> rcases e2 : (ParseBuf.chunk q.data).1 with f | d <;> rw [e1, e2] at h1
  · obtain rfl : e = f := h1
    cases e <;> exact ⟨rfl, rfl, h2⟩
  · exact h1.elim
  · exact h1.elim
  · exact ⟨h1, rfl, h2⟩

theorem advance (n : Nat) : Twin s A R Eq (P.advance n : P β Unit) (P.advance n) := by
  intro p q h
  have h1 := S.advance _ _ n h.buf
  rcases hb : ParseBuf.advance p.data.buf n with - | b <;> rcases hc : ParseBuf.advance q.data.buf n with - | c <;> rw [hb, hc] at h1
  · have e1 : ParseBuf.advance p.data n = none := by show (ParseBuf.advance p.data.buf n).map _ = none; rw [hb]; rfl
    have e2 : ParseBuf.advance q.data n = none := by show (ParseBuf.advance q.data.buf n).map _ = none; rw [hc]; rfl
    unfold P.advance
    rw [e1, e2]
    exact ⟨rfl, rfl, h⟩
  · exact h1.elim
  · exact h1.elim
  · have e1 : ParseBuf.advance p.data n = some ⟨b, p.data.offset + n⟩ := by show (ParseBuf.advance p.data.buf n).map _ = _; rw [hb]; rfl
    have e2 : ParseBuf.advance q.data n = some ⟨c, q.data.offset + n⟩ := by show (ParseBuf.advance q.data.buf n).map _ = _; rw [hc]; rfl
    unfold P.advance
    rw [e1, e2]
    exact ⟨rfl, rfl, h1, by show p.data.offset + n = q.data.offset + n; rw [h.offset], h.config, h.foreign⟩

theorem hint : Twin s A R Eq (P.hint : P β (Option Nat)) P.hint := fun _ _ h => ⟨S.hint _ _ h.buf, rfl, h⟩
theorem fuel : Twin s A R Eq (P.fuel : P β Nat) P.fuel := fun _ _ h => ⟨congrArg (· + 1) (S.steps _ _ h.buf), rfl, h⟩

omit S [ParseBuf β] [ParseBuf γ] in
theorem truncate_like {c d : Chunk} (h : c.Like s d) (n : Nat) : (c.truncate n).Like s (d.truncate n) := by
  unfold Chunk.truncate
  rw [h.1]
  split
  · exact h
  · exact ⟨rfl, h.2⟩

theorem toSliceLoop : ∀ (n len : Nat) (bs : List Byte), Twin s A R Eq (P.toSliceLoop n len bs : P β (List Byte)) (P.toSliceLoop n len bs)
  | 0, _, _ => fault _
  | n + 1, len, bs => by
    unfold P.toSliceLoop
    refine ite (fun _ => pure rfl) fun _ => bind (chunk S) fun c d h => ?_
    dsimp only
    rw [h.1]
    exact bindEq (advance S _) fun _ => toSliceLoop n _ _

theorem toSlice (len : Nat) : Twin s A R Eq (P.toSlice len : P β (List Byte)) (P.toSlice len) :=
  bindEq (fuel S) fun n => toSliceLoop S n len []

theorem ignoredLoop : ∀ (n len : Nat), Twin s A R Eq (P.ignoredLoop n len : P β Unit) (P.ignoredLoop n len)
  | 0, _ => fault _
  | n + 1, len => by
    unfold P.ignoredLoop
    refine ite (fun _ => pure rfl) fun _ => bind (chunk S) fun c d h => ?_
    dsimp only
    rw [h.1]
    exact bindEq (advance S _) fun _ => ignoredLoop n _

theorem bytesIgnored (len : Nat) : Twin s A R Eq (P.bytesIgnored len : P β Unit) (P.bytesIgnored len) :=
  bindEq (fuel S) fun n => ignoredLoop S n len

theorem safeCapacityBound (size : Nat) : Twin s A R Eq (P.safeCapacityBound size : P β Nat) (P.safeCapacityBound size) :=
  ite (fun _ => pure rfl) fun _ => bindEq (hint S) fun _ => pure rfl

theorem bytesSlow (len : Nat) : Twin s A R Eq (P.bytesSlow len : P β (List Byte)) (P.bytesSlow len) := by
  refine bindEq (safeCapacityBound S 1) fun x => bindEq (alloc _) fun _ => bindEq (fuel S) fun n => ?_
  rw [Sim.bytesSlowLoop_eq, Sim.bytesSlowLoop_eq]
  exact toSliceLoop S _ _ _

theorem bytesDirect (len : Nat) : Twin s A R (OptLike fun a b => a.2 = b.2 ∧ (s = true → a.1 % 8 = b.1 % 8))
    (P.bytesDirect len : P β (Option (Nat × List Byte))) (P.bytesDirect len) := by
  refine bind (chunk S) fun c d h => ?_
  rcases c with ⟨l, x⟩
  rcases d with ⟨l', y⟩
  obtain ⟨rfl, h2⟩ : x = y ∧ _ := h
  cases l <;> cases l'
  · exact pure trivial
  · exact h2.elim
  · exact h2.elim
  · exact ite (fun _ => pure trivial) fun _ => bindEq (advance S len) fun _ => pure ⟨rfl, h2⟩

theorem bytes (len : Nat) : Twin s A R Eq (P.bytes len : P β (Cow Byte)) (P.bytes len) := by
  refine bind (bytesDirect S len) fun a b h => ?_
  rcases a with - | ⟨a, bs⟩ <;> rcases b with - | ⟨b, bs'⟩
  · refine bindEq (hint S) fun x => ite (fun _ => ?_) fun _ => ?_
    · exact bindEq (alloc len) fun _ => bindEq (toSlice S len) fun _ => pure rfl
    · exact bindEq (bytesSlow S len) fun _ => pure rfl
  · exact h.elim
  · exact h.elim
  · exact pure (congrArg Cow.borrowed h.1)

theorem array (n : Nat) : Twin s A R Eq (P.array n : P β (List Byte)) (P.array n) := by
  refine bind (chunk S) fun c d h => ?_
  rw [h.1]
  exact ite (fun _ => toSlice S n) fun _ => bindEq (advance S n) fun _ => pure rfl

theorem padded {m : P β α} {m' : P γ α'} (n : Nat) (h : Twin s A R V m m') : Twin s A R V (P.padded n m) (P.padded n m') := by
  refine ite (fun _ => fault _) fun _ => bindEq offset fun a => bind h fun v w hv => bindEq offset fun b => ?_
  exact ite (fun _ => pure hv) fun _ => bindEq (bytesIgnored S _) fun _ => pure hv

theorem restLoop : ∀ (n : Nat) (bs : Cow Byte), Twin s A R Eq (P.restLoop n bs : P β (Cow Byte)) (P.restLoop n bs)
  | 0, _ => fault _
  | n + 1, bs => by
    unfold P.restLoop
    refine bind (chunkResult S) fun a b h => ?_
    rcases a with e | c <;> rcases b with f | d
    · obtain rfl : e = f := h
      exact ite (fun _ => pure rfl) fun _ => fail _
    · exact h.elim
    · exact h.elim
    · have h : c.Like s d := h
      dsimp only
      rw [h.1]
      exact bindEq (advance S _) fun _ => restLoop n _

theorem rest : Twin s A R Eq (P.rest : P β (Cow Byte)) P.rest :=
  bind (chunk S) fun _ _ h => bindEq (toCow h) fun _ => bindEq (advance S _) fun _ => bindEq (fuel S) fun n => restLoop S n _

omit S [ParseBuf β] [ParseBuf γ] in
theorem repeatedLoop {m : P β T} {m' : P γ T} (h : Twin s A R Eq m m') : ∀ n, Twin s A R Eq (P.repeatedLoop m n) (P.repeatedLoop m' n)
  | 0 => pure rfl
  | n + 1 => bindEq h fun _ => bindEq (repeatedLoop h n) fun _ => pure rfl

theorem repeated {m : P β T} {m' : P γ T} (size : Nat) (h : Twin s A R Eq m m') (n : Nat) :
    Twin s A R Eq (P.repeated size m n) (P.repeated size m' n) :=
  bindEq (safeCapacityBound S size) fun _ => bindEq (alloc _) fun _ => repeatedLoop h n

theorem sliceDirect [ListTwin A] (e : Elem T) (len : Nat) : Twin s A R Eq (P.sliceDirect e len : P β (Option (List T))) (P.sliceDirect e len) := by
  refine withConfig fun cfg cfg' hA hf => ?_
  rw [ListTwin.isNative hA, ListTwin.host hA]
  refine ite (fun _ => pure rfl) fun hn => ite (fun _ => fail _) fun _ => ?_
  have hs : s = true := by
    rcases s with _ | _
    · exact absurd (by rw [hf rfl]; rfl) hn
    · rfl
  refine bind (bytesDirect S _) fun a b h => ?_
  rcases a with - | ⟨a, bs⟩ <;> rcases b with - | ⟨b, bs'⟩
  · exact pure rfl
  · exact h.elim
  · exact h.elim
  · obtain ⟨rfl, h2⟩ : bs = bs' ∧ _ := h
    have h2 : a % 8 = b % 8 := h2 hs
    dsimp only
    rw [h2]
    exact ite (fun _ => pure rfl) fun _ => pure rfl

theorem slice [ListTwin A] {m : P β T} {m' : P γ T} (e : Elem T) (len : Nat) (h : Twin s A R Eq m m') :
    Twin s A R Eq (P.slice e m len) (P.slice e m' len) := by
  refine bindEq (sliceDirect S e len) fun r => ?_
  cases r with
  | none => exact bindEq (repeated S e.size h len) fun _ => pure rfl
  | some x => exact pure rfl

theorem closed : Closed (fun {α} (m : P β α) (m' : P γ α) => Twin s Eq R Eq m m') where
  pure _ := pure rfl
  bind := bindEq
  fault e _ := fault e
  config := config
  array := array S
  bytes := bytes S
  rest := rest S
  padded n h := padded S n h
  slice e n h := slice S e n h

end Twin

/-! ## The buffers -/

/-- Slices with the same bytes. -/
def Slice.Like (s : Bool) (a b : Slice) : Prop := a.data = b.data ∧ (s = true → a.addr % 8 = b.addr % 8)

theorem Slice.twin (s : Bool) : BufTwin s (Slice.Like s) where
  chunk a b h := by
    refine ⟨?_, h⟩
    show ExLike _ (if a.data = [] then _ else _) (if b.data = [] then _ else _)
    rw [h.1]
    split
    · rfl
    · exact ⟨rfl, h.2⟩
  advance a b n h := by
    show OptLike _ (if n ≤ a.data.length then _ else _) (if n ≤ b.data.length then _ else _)
    rw [h.1]
    split
    · refine ⟨rfl, fun hs => ?_⟩
      have := h.2 hs
      show (a.addr + n) % 8 = (b.addr + n) % 8
      omega
    · trivial
  hint a b h := by show some _ = some _; rw [h.1]
  steps a b h := by show a.data.length = b.data.length; rw [h.1]

/-- Pieces with the same bytes. -/
inductive PiecesLike (s : Bool) : List Slice → List Slice → Prop
  | nil : PiecesLike s [] []
  | cons {a b : Slice} {as bs : List Slice} : a.Like s b → PiecesLike s as bs → PiecesLike s (a :: as) (b :: bs)

def ChunkBuf.Like (s : Bool) (a b : ChunkBuf) : Prop := PiecesLike s a.pieces b.pieces

theorem PiecesLike.adv {s : Bool} {as bs : List Slice} (h : PiecesLike s as bs) : ∀ n, PiecesLike s (ChunkBuf.advLoop as n) (ChunkBuf.advLoop bs n) := by
  induction h with
  | nil => exact fun _ => .nil
  | @cons a b as bs h hs ih =>
    intro n
    unfold ChunkBuf.advLoop
    rw [h.1]
    split
    · refine .cons ⟨by rw [← h.1], fun hx => ?_⟩ hs
      have := h.2 hx
      show (a.addr + n) % 8 = (b.addr + n) % 8
      omega
    · exact ih _

theorem PiecesLike.cost {s : Bool} {as bs : List Slice} (h : PiecesLike s as bs) : ChunkBuf.cost as = ChunkBuf.cost bs := by
  induction h with
  | nil => rfl
  | cons h _ ih => unfold ChunkBuf.cost; rw [h.1, ih]

theorem ChunkBuf.twin (s : Bool) : BufTwin s (ChunkBuf.Like s) where
  chunk a b h := by
    refine ⟨?_, h⟩
    rcases a with ⟨as⟩
    rcases b with ⟨bs⟩
    have h : PiecesLike s as bs := h
    cases h with
    | nil => rfl
    | cons g _ => exact ⟨g.1, g.2⟩
  advance a b n h := PiecesLike.adv h n
  hint a b h := rfl
  steps a b h := PiecesLike.cost h

/-- Chunks with the same bytes. -/
inductive ChunksLike (s : Bool) : List Chunk → List Chunk → Prop
  | nil : ChunksLike s [] []
  | cons {a b : Chunk} {as bs : List Chunk} : a.Like s b → ChunksLike s as bs → ChunksLike s (a :: as) (b :: bs)

structure Cursor.Like (s : Bool) (c d : Cursor) : Prop where
  chunks : ChunksLike s c.chunks d.chunks
  offset : c.offset = d.offset
  len : c.len = d.len

theorem ChunksLike.bytes {s : Bool} {as bs : List Chunk} (h : ChunksLike s as bs) : chunkBytes as = chunkBytes bs := by
  induction h with
  | nil => rfl
  | cons h _ ih => unfold chunkBytes; rw [h.1, ih]

theorem ChunksLike.append {s : Bool} {as bs cs ds : List Chunk} (h : ChunksLike s as bs) (h' : ChunksLike s cs ds) :
    ChunksLike s (as ++ cs) (bs ++ ds) := by
  induction h with
  | nil => exact h'
  | cons h _ ih => exact .cons h ih

theorem ChunksLike.reverse {s : Bool} {as bs : List Chunk} (h : ChunksLike s as bs) : ChunksLike s as.reverse bs.reverse := by
  induction h with
  | nil => exact .nil
  | cons h _ ih => rw [List.reverse_cons, List.reverse_cons]; exact ih.append (.cons h .nil)

theorem ChunksLike.slow {s : Bool} {as bs : List Chunk} (h : ChunksLike s as bs) : ∀ off,
    ChunksLike s (Cursor.slowLoop as off).1 (Cursor.slowLoop bs off).1 ∧ (Cursor.slowLoop as off).2 = (Cursor.slowLoop bs off).2 := by
  induction h with
  | nil => exact fun _ => ⟨.nil, rfl⟩
  | cons h hs ih =>
    intro off
    unfold Cursor.slowLoop
    rw [h.1]
    split
    · exact ⟨.cons h hs, rfl⟩
    · exact ih _

theorem Cursor.Like.slow {s : Bool} {c d : Cursor} (h : c.Like s d) : OptLike (Cursor.Like s) c.advanceSlow d.advanceSlow := by
  unfold Cursor.advanceSlow
  rw [h.offset]
  obtain ⟨h1, h2⟩ := h.chunks.slow d.offset
  rcases e1 : Cursor.slowLoop c.chunks d.offset with ⟨as, x⟩
  rcases e2 : Cursor.slowLoop d.chunks d.offset with ⟨bs, y⟩
  rw [e1, e2] at h1 h2
  obtain rfl : x = y := h2
  have h1 : ChunksLike s as bs := h1
  cases h1 with
  | nil =>
    dsimp only
    split
    · exact ⟨.nil, rfl, h.len⟩
    · trivial
  | cons g1 g2 => exact ⟨.cons g1 g2, rfl, h.len⟩

theorem Cursor.twin (s : Bool) : BufTwin s (Cursor.Like s) where
  chunk c d h := by
    refine ⟨?_, h⟩
    show ExLike _ c.chunk d.chunk
    unfold Cursor.chunk
    rcases c with ⟨cs, off, len⟩
    rcases d with ⟨ds, off', len'⟩
    obtain ⟨h1, h2, h3⟩ := h
    dsimp only at h1 h2 h3 ⊢
    subst h2
    cases h1 with
    | nil => rfl
    | @cons a b _ _ h _ =>
      rcases a with ⟨l, x⟩
      rcases b with ⟨l', y⟩
      obtain ⟨rfl, h2⟩ : x = y ∧ _ := h
      dsimp only
      split
      · cases l <;> cases l'
        · exact ⟨rfl, trivial⟩
        · exact h2.elim
        · exact h2.elim
        · rename_i a b
          refine ⟨rfl, fun hs => ?_⟩
          have : a % 8 = b % 8 := h2 hs
          omega
      · rfl
  advance c d n h := by
    show OptLike _ (c.advance n) (d.advance n)
    unfold Cursor.advance
    rcases c with ⟨cs, off, len⟩
    rcases d with ⟨ds, off', len'⟩
    obtain ⟨h1, h2, h3⟩ := h
    dsimp only at h1 h2 h3 ⊢
    subst h2 h3
    split
    · trivial
    · split
      · trivial
      · cases h1 with
        | nil => exact Cursor.Like.slow ⟨.nil, rfl, rfl⟩
        | cons h hs =>
          dsimp only
          rw [h.1]
          split
          · exact ⟨.cons h hs, rfl, rfl⟩
          · exact Cursor.Like.slow ⟨.cons h hs, rfl, rfl⟩
  hint c d h := congrArg some h.len
  steps c d h := by show chunkBytes _ - _ = chunkBytes _ - _; rw [h.chunks.bytes, h.offset]

theorem Cursor.Like.asSlice {s : Bool} {c d : Cursor} (h : c.Like s d) : OptLike (Slice.Like s) c.asSlice d.asSlice := by
  rcases c with ⟨cs, off, len⟩
  rcases d with ⟨ds, off', len'⟩
  obtain ⟨h1, -, -⟩ := h
  dsimp only at h1
  cases h1 with
  | nil => trivial
  | @cons a b as bs h hs =>
    rcases a with ⟨l, x⟩
    rcases b with ⟨l', y⟩
    obtain ⟨rfl, h2⟩ : x = y ∧ _ := h
    cases hs with
    | nil =>
      cases l <;> cases l'
      · trivial
      · exact h2.elim
      · exact h2.elim
      · exact ⟨rfl, h2⟩
    | cons _ _ =>
      cases l <;> cases l'
      · trivial
      · exact h2.elim
      · exact h2.elim
      · trivial

/-! ## Whole records -/

section
variable [ParseBuf β] [ParseBuf γ] {s : Bool} {A B : ParseConfig → ParseConfig → Prop} {R : β → γ → Prop} (S : BufTwin s R)
include S

theorem BufTwin.tracking : BufTwin s (SimTrack R) where
  chunk t u h := ⟨(S.chunk _ _ h.1).1, (S.chunk _ _ h.1).2, h.2⟩
  advance t u n h := by
    show OptLike _ ((ParseBuf.advance t.buf n).map _) ((ParseBuf.advance u.buf n).map _)
    have h1 := S.advance _ _ n h.1
    rcases e1 : ParseBuf.advance t.buf n with - | b <;> rcases e2 : ParseBuf.advance u.buf n with - | c <;> rw [e1, e2] at h1
    · trivial
    · exact h1.elim
    · exact h1.elim
    · exact ⟨h1, by show t.offset + n = u.offset + n; rw [h.2]⟩
  hint t u h := S.hint _ _ h.1
  steps t u h := S.steps _ _ h.1

namespace Twin

theorem cursorLoop : ∀ (n len : Nat) (cs ds : List Chunk), ChunksLike s cs ds →
    Twin s A R (ChunksLike s) (P.cursorLoop n len cs : P β _) (P.cursorLoop n len ds)
  | 0, _, _, _, _ => fault _
  | n + 1, len, cs, ds, h => by
    unfold P.cursorLoop
    refine ite (fun _ => pure h) fun _ => bind (chunk S) fun c d hc => ?_
    have hc := truncate_like hc len
    dsimp only
    refine bind (V := ChunksLike s) ?_ fun cs ds h => ?_
    · unfold P.pushChunk
      rw [hc.1]
      exact ite (fun _ => bindEq (toCow hc) fun _ => pure (.cons hc h)) fun _ => pure h
    · rw [hc.1]
      exact bindEq (advance S _) fun _ => cursorLoop n _ cs ds h

theorem splitAt (len : Nat) : Twin s A R (TwinP s A (Cursor.Like s)) (P.splitAt len : P β (Parser Cursor)) (P.splitAt len) := by
  refine bind (V := Cursor.Like s) ?_ fun c d h => withConfig fun cfg cfg' hA hf => pure ⟨h, rfl, hA, hf⟩
  exact bindEq (fuel S) fun n => bind (cursorLoop S n len [] [] .nil) fun cs ds h => pure ⟨h.reverse, rfl, rfl⟩

omit S [ParseBuf β] [ParseBuf γ] in
theorem onChild {β' γ' : Type} {R' : β' → γ' → Prop} {V : α → α' → Prop} {m : P β' α} {m' : P γ' α'} (h : Twin s B R' V m m')
    {c : Parser β'} {d : Parser γ'} (hc : TwinP s B R' c d) :
    Twin s A R (fun a b => V a.1 b.1 ∧ TwinP s B R' a.2 b.2) (P.onChild c m : P β _) (P.onChild d m') := by
  intro p q hp
  obtain ⟨h1, h2, h3⟩ := h c d hc
  unfold P.onChild
  rcases hm : (m c).res with e | a <;> rcases hm' : (m' d).res with f | b <;> rw [hm, hm'] at h1
  · obtain rfl : e = f := h1
    simp only [hm, hm']
    exact ⟨rfl, h2, hp⟩
  · exact h1.elim
  · exact h1.elim
  · simp only [hm, hm']
    exact ⟨⟨h1, h3⟩, h2, hp⟩

/-- Splitting off a record's region and reading its trailer, if the two sides read trailers alike. -/
theorem metadataWithHeader' (h : Header)
    (hid : ¬ (h.type_.toNat = 1 ∨ h.type_.toNat = 9) → (∀ c d, A c d → SampleId.estimateLen c = SampleId.estimateLen d) ∧
      Twin s A (Cursor.Like s) Eq (parseSampleId : P Cursor SampleId) parseSampleId) :
    Twin s A R (fun a b => TwinP s A (Cursor.Like s) a.1 b.1 ∧ a.2 = b.2 ∧ a.2.ty = h.type_ ∧ a.2.misc = h.misc)
      (P.metadataWithHeader h : P β _) (P.metadataWithHeader h) := by
  unfold P.metadataWithHeader
  refine ite (fun _ => fail _) fun _ => bind (splitAt S _) fun c d hc => ite (fun _ => pure ⟨hc, rfl, rfl, rfl⟩) fun hty => ?_
  obtain ⟨h1, h2⟩ := hid hty
  rw [h1 _ _ hc.config]
  refine ite (fun _ => fail _) fun _ => ?_
  refine bind (onChild (splitAt (Cursor.twin s) _) hc) fun a b hab => ?_
  rcases a with ⟨a, a'⟩
  rcases b with ⟨b, b'⟩
  refine bind (onChild h2 hab.2) fun x y hxy => ?_
  rcases x with ⟨x, x'⟩
  rcases y with ⟨y, y'⟩
  obtain ⟨rfl, -⟩ : x = y ∧ _ := hxy
  exact pure ⟨hab.1, rfl, rfl, rfl⟩

omit S in
theorem dispatch' {O : Type} (v : Visitor Cow O) (md : Metadata) (hb : Twin s A R Eq (parseBody md.ty : P β (Record Cow)) (parseBody md.ty)) :
    Twin s A R Eq (P.dispatch v md : P β O) (P.dispatch v md) := by
  rw [P.dispatch_eq, P.dispatch_eq]
  refine bindEq hb fun r => ofExcept ?_
  cases v.apply r md <;> rfl

omit [ParseBuf γ] [ParseBuf β] S in
theorem withMisc {p : Parser β} {q : Parser γ} (h : TwinP s A R p q) (m : U16) (hm : ∀ c d, A c d → B (c.withMisc m) (d.withMisc m)) :
    TwinP s B (SimTrack R) (Parser.new p.data (p.config.withMisc m)) (Parser.new q.data (q.config.withMisc m)) :=
  ⟨⟨h.buf, h.offset⟩, rfl, hm _ _ h.config, h.foreign⟩

omit S [ParseBuf β] [ParseBuf γ] in
theorem recordImpl' {β' γ' O : Type} [ParseBuf β'] [ParseBuf γ'] {R' : β' → γ' → Prop} {p : Parser β'} {q : Parser γ'}
    (h : TwinP s A R' p q) (v : Visitor Cow O) (md : Metadata) (hm : ∀ c d, A c d → B (c.withMisc md.misc) (d.withMisc md.misc))
    (hb : Twin s B (SimTrack R') Eq (parseBody md.ty : P (Tracking β') (Record Cow)) (parseBody md.ty)) :
    Twin s A R Eq (P.recordImpl p v md : P β O) (P.recordImpl q v md) :=
  bind (onChild (dispatch' v md hb) (withMisc h md.misc hm)) fun _ _ hab => pure hab.1

/-- A whole record, if the two sides read its trailer and its body alike. -/
theorem recordWithHeader' {O : Type} (v : Visitor Cow O) (h : Header)
    (hid : ¬ (h.type_.toNat = 1 ∨ h.type_.toNat = 9) → (∀ c d, A c d → SampleId.estimateLen c = SampleId.estimateLen d) ∧
      Twin s A (Cursor.Like s) Eq (parseSampleId : P Cursor SampleId) parseSampleId)
    (hm : ∀ c d, A c d → B (c.withMisc h.misc) (d.withMisc h.misc))
    (hb : ∀ {β' γ' : Type} [ParseBuf β'] [ParseBuf γ'] {R' : β' → γ' → Prop}, BufTwin s R' →
      Twin s B R' Eq (parseBody h.type_ : P β' (Record Cow)) (parseBody h.type_)) :
    Twin s A R Eq (P.recordWithHeader v h : P β O) (P.recordWithHeader v h) := by
  refine bind (metadataWithHeader' S h hid) fun a b hab => ?_
  rcases a with ⟨p, md⟩
  rcases b with ⟨q, md'⟩
  obtain ⟨h1, rfl, hty, hmi⟩ : TwinP s A (Cursor.Like s) p q ∧ md = md' ∧ md.ty = h.type_ ∧ md.misc = h.misc := hab
  have h2 := Cursor.Like.asSlice h1.buf
  dsimp only
  rcases e1 : p.data.buf.asSlice with - | x <;> rcases e2 : q.data.buf.asSlice with - | y <;> rw [e1, e2] at h2
  · exact recordImpl' h1 v md (by rw [hmi]; exact hm) (by rw [hty]; exact hb (Cursor.twin s).tracking)
  · exact h2.elim
  · exact h2.elim
  · have h2 : x.Like s y := h2
    have h3 : TwinP s A (Slice.Like s) (Parser.new x p.config) (Parser.new y q.config) := ⟨h2, rfl, h1.config, h1.foreign⟩
    exact recordImpl' h3 v md (by rw [hmi]; exact hm) (by rw [hty]; exact hb (Slice.twin s).tracking)

/-! The same configuration on both sides. -/

theorem metadataWithHeader (h : Header) : Twin s Eq R (fun a b => TwinP s Eq (Cursor.Like s) a.1 b.1 ∧ a.2 = b.2)
    (P.metadataWithHeader h : P β _) (P.metadataWithHeader h) := by
  intro p q hp
  obtain ⟨h1, h2, h3⟩ := metadataWithHeader' (A := Eq) S h (fun _ => ⟨fun _ _ e => e ▸ rfl, (closed (Cursor.twin s)).sampleId⟩) p q hp
  refine ⟨?_, h2, h3⟩
  generalize (P.metadataWithHeader h p).res = x at h1
  generalize (P.metadataWithHeader h q).res = y at h1
  cases x <;> cases y
  · exact h1
  · exact h1
  · exact h1
  · exact ⟨h1.1, h1.2.1⟩

theorem recordWithHeader {O : Type} (v : Visitor Cow O) (h : Header) :
    Twin s Eq R Eq (P.recordWithHeader v h : P β O) (P.recordWithHeader v h) :=
  recordWithHeader' (A := Eq) (B := Eq) S v h (fun _ => ⟨fun _ _ e => e ▸ rfl, (closed (Cursor.twin s)).sampleId⟩) (fun _ _ e => e ▸ rfl)
    (fun S' => (closed S').body _)

theorem record {O : Type} (v : Visitor Cow O) : Twin s Eq R Eq (P.record v : P β O) (P.record v) :=
  bindEq (closed S).header fun h => recordWithHeader S v h

theorem metadata : Twin s Eq R (fun a b => TwinP s Eq (Cursor.Like s) a.1 b.1 ∧ a.2 = b.2) (P.metadata : P β _) P.metadata :=
  bindEq (closed S).header fun h => metadataWithHeader S h

end Twin
end

/-! ## `perf_event_attr` -/

namespace Closed
variable [ParseBuf β] [ParseBuf γ] {R : {α : Type} → P β α → P γ α → Prop} (h : Closed R)
include h

theorem attrStep {c : Bool} {f : Attr → P β Attr} {f' : Attr → P γ Attr} (hf : ∀ a, R (f a) (f' a)) (a : Attr) :
    R (Perf.attrStep c f a) (Perf.attrStep c f' a) := by
  cases c with
  | true => exact hf a
  | false => exact h.pure _

theorem attrHead (t n : U32) : R (Perf.attrHead t n : P β Attr) (Perf.attrHead t n) := by
  unfold Perf.attrHead
  refine h.bind (h.attrStep (fun a => by unfold attrVer0; closed h) _) fun _ => ?_
  refine h.bind (h.attrStep (fun a => by unfold attrVer1; closed h) _) fun _ => ?_
  refine h.bind (h.attrStep (fun a => by unfold attrVer2; closed h) _) fun _ => ?_
  refine h.bind (h.attrStep (fun a => by unfold attrVer3; closed h) _) fun _ => ?_
  refine h.bind (h.attrStep (fun a => by unfold attrVer4; closed h) _) fun _ => ?_
  refine h.bind (h.attrStep (fun a => by unfold attrVer5; closed h) _) fun _ => ?_
  refine h.bind (h.attrStep (fun a => by unfold attrVer6; closed h) _) fun _ => ?_
  refine h.bind (h.attrStep (fun a => by unfold attrVer7; closed h) _) fun _ => ?_
  exact h.attrStep (fun a => by unfold attrVer8; closed h) _

theorem attrBody (t n : U32) : R (Perf.attrBody t n : P β Attr) (Perf.attrBody t n) :=
  h.bind (h.attrHead t n) fun _ => h.attrStep (fun a => by unfold attrTail; closed h) _

end Closed

/-! ## Programs over the public interface -/

namespace Twin
variable {s : Bool} {R : β → γ → Prop}

theorem attr [ParseBuf β] [ParseBuf γ] (S : BufTwin s R) : Twin s Eq R Eq (P.parseAttr : P β Attr) P.parseAttr := by
  refine bindEq (closed S).u32 fun t => bindEq (closed S).u32 fun n => ite (fun _ => fail _) fun _ => ?_
  refine bind (splitAt S _) fun c d h => ?_
  refine bind (onChild ((closed (Cursor.twin s)).attrBody t n) h) fun a b h => ?_
  rw [h.1]
  exact pure rfl

theorem call [ParseBuf β] [ParseBuf γ] (S : BufTwin s R) {T : Type} (c : Call T) : Twin s Eq R Eq (c.run β) (c.run γ) := by
  have k := closed S
  cases c with
  | array n => exact array S n
  | direct n => exact sliceDirect S _ n
  | entries n => exact bindEq (slice S _ n k.namespaceEntry) fun _ => pure rfl
  | branches n => exact bindEq (slice S _ n k.branchEntry) fun _ => pure rfl
  | header => exact k.header
  | attr => exact attr S
  | entry => exact k.namespaceEntry
  | branch => exact k.branchEntry
  | mmapDetail => exact k.mmapDetail
  | sampleId => exact k.sampleId
  | readValue => exact k.readValue
  | readGroup => exact bindEq k.readGroup fun _ => pure rfl
  | body ty => exact bindEq (k.body ty) fun _ => pure rfl
  | visit => exact bindEq (record S _) fun _ => pure rfl
  | visitWith h => exact bindEq (recordWithHeader S _ h) fun _ => pure rfl

theorem attempt {m : P β α} {m' : P γ α} (h : Twin s Eq R Eq m m') : Twin s Eq R Eq (P.attempt m) (P.attempt m') := by
  intro p q hp
  obtain ⟨h1, h2, h3⟩ := h p q hp
  have h1 := h1.eq
  unfold P.attempt
  rw [← h1]
  rcases (m p).res with e | a
  · cases e <;> exact ⟨rfl, h2, h3⟩
  · exact ⟨rfl, h2, h3⟩

theorem attemptOn {β' γ' : Type} {R' : β' → γ' → Prop} {m : P β' α} {m' : P γ' α} (h : Twin s Eq R' Eq m m') {c : Parser β'} {d : Parser γ'}
    (hc : TwinP s Eq R' c d) : Twin s Eq R Eq (P.attemptOn c m : P β _) (P.attemptOn d m') := by
  intro p q hp
  obtain ⟨h1, h2, -⟩ := h c d hc
  have h1 := h1.eq
  unfold P.attemptOn
  rw [← h1]
  rcases (m c).res with e | a
  · cases e <;> exact ⟨rfl, h2, hp⟩
  · exact ⟨rfl, h2, hp⟩

/-- Every program over the public interface. -/
theorem prog {α : Type} (x : Prog α) : ∀ {β γ : Type} [ParseBuf β] [ParseBuf γ] {R : β → γ → Prop}, BufTwin s R →
    Twin s Eq R Eq (x.run β) (x.run γ) := by
  induction x with
  | done a => exact fun _ => pure rfl
  | fail e => exact fun _ => fail e
  | config k ih => exact fun S => bindEq config fun c => ih c S
  | u8 k ih => exact fun S => bindEq (closed S).u8 fun c => ih c S
  | u16 k ih => exact fun S => bindEq (closed S).u16 fun c => ih c S
  | u32 k ih => exact fun S => bindEq (closed S).u32 fun c => ih c S
  | u64 k ih => exact fun S => bindEq (closed S).u64 fun c => ih c S
  | bytes n k ih => exact fun S => bindEq (bytes S n) fun c => ih _ S
  | rest k ih => exact fun S => bindEq (rest S) fun c => ih _ S
  | restTrimNul k ih => exact fun S => bindEq (closed S).restTrimNul fun c => ih _ S
  | words n k ih => exact fun S => bindEq (slice S _ n (closed S).u64) fun c => ih _ S
  | repeated size item n k ih ih' => exact fun S => bindEq (repeated S size (ih S) n) fun c => ih' c S
  | metadata body k ih ih' =>
    intro β γ _ _ R S
    refine bind (metadata S) fun a b h => ?_
    rcases a with ⟨a, md⟩
    rcases b with ⟨b, md'⟩
    obtain ⟨h1, rfl⟩ : TwinP s Eq (Cursor.Like s) a b ∧ md = md' := h
    exact bindEq (attemptOn (ih (Cursor.twin s)) h1) fun r => ih' md r S
  | metadataWith hd body k ih ih' =>
    intro β γ _ _ R S
    refine bind (metadataWithHeader S hd) fun a b h => ?_
    rcases a with ⟨a, md⟩
    rcases b with ⟨b, md'⟩
    obtain ⟨h1, rfl⟩ : TwinP s Eq (Cursor.Like s) a b ∧ md = md' := h
    exact bindEq (attemptOn (ih (Cursor.twin s)) h1) fun r => ih' md r S
  | call c k ih => exact fun S => bindEq (call S c) fun r => ih r S
  | record k ih => exact fun S => bindEq (record S _) fun r => ih _ S
  | attempt m k ih ih' => exact fun S => bindEq (attempt (ih S)) fun r => ih' r S

end Twin
end Perf
