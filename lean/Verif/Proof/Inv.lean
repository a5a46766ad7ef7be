import Verif.Proof.Post
/-!
# Invariants of parser states, for any buffer whatsoever

`Inv I Q m`: started in a state satisfying `I`, `m` ends in one (also when it fails), and values it returns satisfy `Q`.
-/
namespace Perf
variable {β : Type} [ParseBuf β] {α α' T : Type}

/-- `I` survives the two buffer operations. -/
structure Stable (I : Parser β → Prop) : Prop where
  chunk : ∀ p, I p → I (P.chunk p).st
  advance : ∀ p n, I p → I (P.advance n p).st

/-- `m` keeps `I` and its values satisfy `Q`. -/
def Inv (I : Parser β → Prop) (Q : α → Prop) (m : P β α) : Prop :=
  ∀ p, I p → I (m p).st ∧ ∀ a, (m p).res = .ok a → Q a

/-- The configuration of a parser never changes. -/
theorem Stable.config (cfg : ParseConfig) : Stable (fun p : Parser β => p.config = cfg) where
  chunk _ h := h
  advance p n h := by
    unfold P.advance
    split <;> exact h

namespace Inv
variable {I : Parser β → Prop} {Q : α → Prop} {R : α' → Prop}

omit [ParseBuf β] in
theorem mono {Q' : α → Prop} {m : P β α} (h : Inv I Q m) (hq : ∀ a, Q a → Q' a) : Inv I Q' m :=
  fun p hp => ⟨(h p hp).1, fun a ha => hq a ((h p hp).2 a ha)⟩

omit [ParseBuf β] in
theorem bind {m : P β α} {c : α → P β α'} (h : Inv I Q m) (hc : ∀ a, Q a → Inv I R (c a)) : Inv I R (m >>= c) := by
  intro p hp
  obtain ⟨h1, h2⟩ := h p hp
  rcases hm : (m p).res with e | a
  · rw [P.bind_err (P.run_eq _ hm)]
    exact ⟨h1, nofun⟩
  · rw [P.bind_ok (P.run_eq _ hm)]
    exact hc a (h2 a hm) _ h1

omit [ParseBuf β] in
theorem pure {a : α} (h : Q a) : Inv I Q (Pure.pure a : P β α) := fun p hp => ⟨hp, fun b hb => by cases hb; exact h⟩

omit [ParseBuf β] in
theorem fault (e : Fault) : Inv I Q (P.fault e : P β α) := fun _ hp => ⟨hp, nofun⟩

omit [ParseBuf β] in
theorem fail (e : ParseError) : Inv I Q (P.fail e : P β α) := fun _ hp => ⟨hp, nofun⟩

omit [ParseBuf β] in
theorem ite {c : Prop} [Decidable c] {a b : P β α} (h1 : c → Inv I Q a) (h2 : ¬ c → Inv I Q b) :
    Inv I Q (if c then a else b) := by
  by_cases h : c
  · rw [if_pos h]; exact h1 h
  · rw [if_neg h]; exact h2 h

omit [ParseBuf β] in
theorem config : Inv I (fun _ => True) (P.config : P β ParseConfig) := fun _ hp => ⟨hp, fun _ _ => trivial⟩
omit [ParseBuf β] in
theorem config_eq (cfg : ParseConfig) : Inv (fun p => p.config = cfg) (fun c => c = cfg) (P.config : P β ParseConfig) :=
  fun p hp => ⟨hp, fun a ha => by cases ha; exact hp⟩
omit [ParseBuf β] in
theorem offset : Inv I (fun _ => True) (P.offset : P β Nat) := fun _ hp => ⟨hp, fun _ _ => trivial⟩
omit [ParseBuf β] in
theorem alloc (n : Nat) : Inv I (fun _ => True) (P.alloc n : P β Unit) := fun _ hp => ⟨hp, fun _ _ => trivial⟩
theorem hint : Inv I (fun _ => True) (P.hint : P β (Option Nat)) := fun _ hp => ⟨hp, fun _ _ => trivial⟩
theorem fuel : Inv I (fun _ => True) (P.fuel : P β Nat) := fun _ hp => ⟨hp, fun _ _ => trivial⟩
theorem chunk (s : Stable I) : Inv I (fun _ => True) (P.chunk : P β Chunk) := fun p hp => ⟨s.chunk p hp, fun _ _ => trivial⟩
theorem advance (s : Stable I) (n : Nat) : Inv I (fun _ => True) (P.advance n : P β Unit) :=
  fun p hp => ⟨s.advance p n hp, fun _ _ => trivial⟩
theorem chunkResult (s : Stable I) : Inv I (fun _ => True) (P.chunkResult : P β (Except ParseError Chunk)) := by
  intro p hp
  have h := s.chunk p hp
  refine ⟨?_, fun _ _ => trivial⟩
  unfold P.chunkResult
  split <;> exact h

omit [ParseBuf β] in
/-- Anything, with what it returns forgotten. -/
theorem skip {m : P β α} {c : α → P β α'} (h : Inv I (fun _ => True) m) (hc : ∀ a, Inv I R (c a)) : Inv I R (m >>= c) :=
  bind h fun a _ => hc a

omit [ParseBuf β] in
theorem toCow (c : Chunk) : Inv I (fun x => x = c.toCow) (P.toCow c : P β (Cow Byte)) := by
  unfold P.toCow
  split
  · exact skip (alloc _) fun _ => pure rfl
  · exact pure rfl

theorem pushChunk (c : Chunk) (cs : List Chunk) : Inv I (fun _ => True) (P.pushChunk c cs : P β (List Chunk)) :=
  ite (fun _ => skip ((toCow c).mono fun _ _ => trivial) fun _ => pure trivial) fun _ => pure trivial

variable (s : Stable I)
include s

theorem cursorLoop : ∀ (n len : Nat) (cs : List Chunk), Inv I (fun _ => True) (P.cursorLoop n len cs : P β (List Chunk))
  | 0, _, _ => fault _
  | n + 1, _, _ => ite (fun _ => pure trivial) fun _ =>
      skip (chunk s) fun _ => skip (pushChunk _ _) fun _ => skip (advance s _) fun _ => cursorLoop n _ _

theorem splitAt (len : Nat) : Inv I (fun _ => True) (P.splitAt len : P β (Parser Cursor)) :=
  skip (skip fuel fun _ => skip (cursorLoop s _ _ _) fun _ => pure trivial) fun _ => skip config fun _ => pure trivial

theorem bytesDirect (len : Nat) : Inv I (fun _ => True) (P.bytesDirect len : P β (Option (Nat × List Byte))) := by
  refine skip (chunk s) fun c => ?_
  split
  · exact pure trivial
  · exact ite (fun _ => pure trivial) fun _ => skip (advance s _) fun _ => pure trivial

theorem bytesSlowLoop : ∀ (n len : Nat) (bs : List Byte), Inv I (fun _ => True) (P.bytesSlowLoop n len bs : P β (List Byte))
  | 0, _, _ => fault _
  | n + 1, _, _ => ite (fun _ => pure trivial) fun _ =>
      skip (chunk s) fun _ => skip (advance s _) fun _ => bytesSlowLoop n _ _

omit s in
theorem safeCapacityBound (size : Nat) : Inv I (fun _ => True) (P.safeCapacityBound size : P β Nat) :=
  ite (fun _ => pure trivial) fun _ => skip hint fun _ => pure trivial

theorem bytesSlow (len : Nat) : Inv I (fun _ => True) (P.bytesSlow len : P β (List Byte)) :=
  skip (safeCapacityBound 1) fun _ => skip (alloc _) fun _ => skip fuel fun _ => bytesSlowLoop s _ _ _

theorem toSliceLoop : ∀ (n len : Nat) (bs : List Byte), Inv I (fun _ => True) (P.toSliceLoop n len bs : P β (List Byte))
  | 0, _, _ => fault _
  | n + 1, _, _ => ite (fun _ => pure trivial) fun _ =>
      skip (chunk s) fun _ => skip (advance s _) fun _ => toSliceLoop n _ _

theorem toSlice (len : Nat) : Inv I (fun _ => True) (P.toSlice len : P β (List Byte)) :=
  skip fuel fun _ => toSliceLoop s _ _ _

theorem bytes (len : Nat) : Inv I (fun _ => True) (P.bytes len : P β (Cow Byte)) := by
  refine skip (bytesDirect s len) fun r => ?_
  split
  · exact pure trivial
  · exact skip hint fun _ => ite (fun _ => skip (alloc _) fun _ => skip (toSlice s _) fun _ => pure trivial) fun _ =>
      skip (bytesSlow s _) fun _ => pure trivial

theorem ignoredLoop : ∀ (n len : Nat), Inv I (fun _ => True) (P.ignoredLoop n len : P β Unit)
  | 0, _ => fault _
  | n + 1, _ => ite (fun _ => pure trivial) fun _ =>
      skip (chunk s) fun _ => skip (advance s _) fun _ => ignoredLoop n _

theorem bytesIgnored (len : Nat) : Inv I (fun _ => True) (P.bytesIgnored len : P β Unit) :=
  skip fuel fun _ => ignoredLoop s _ _

theorem array (n : Nat) : Inv I (fun _ => True) (P.array n : P β (List Byte)) :=
  skip (chunk s) fun _ => ite (fun _ => toSlice s _) fun _ => skip (advance s _) fun _ => pure trivial

theorem padded (n : Nat) {m : P β α} (h : Inv I Q m) : Inv I Q (P.padded n m) :=
  ite (fun _ => fault _) fun _ => skip offset fun _ => bind h fun _ ha => skip offset fun _ =>
    ite (fun _ => pure ha) fun _ => skip (bytesIgnored s _) fun _ => pure ha

theorem restLoop : ∀ (n : Nat) (c : Cow Byte), Inv I (fun _ => True) (P.restLoop n c : P β (Cow Byte))
  | 0, _ => fault _
  | n + 1, c => by
    refine skip (chunkResult s) fun r => ?_
    split
    · exact skip (advance s _) fun _ => restLoop n _
    · exact ite (fun _ => pure trivial) fun _ => fail _

theorem rest : Inv I (fun _ => True) (P.rest : P β (Cow Byte)) :=
  skip (chunk s) fun _ => skip ((toCow _).mono fun _ _ => trivial) fun _ => skip (advance s _) fun _ => skip fuel fun _ =>
    restLoop s _ _

theorem restTrimNul : Inv I (fun _ => True) (P.restTrimNul : P β (Cow Byte)) :=
  skip (rest s) fun _ => pure trivial

theorem sliceDirect (e : Elem T) (len : Nat) : Inv I (fun _ => True) (P.sliceDirect e len : P β (Option (List T))) := by
  refine skip config fun c => ite (fun _ => pure trivial) fun _ => ite (fun _ => fail _) fun _ =>
    skip (bytesDirect s _) fun r => ?_
  split
  · exact pure trivial
  · exact ite (fun _ => pure trivial) fun _ => pure trivial

omit s in
omit [ParseBuf β] in
theorem repeatedLoop {item : P β T} (h : Inv I (fun _ => True) item) : ∀ n, Inv I (fun _ => True) (P.repeatedLoop item n)
  | 0 => pure trivial
  | n + 1 => skip h fun _ => skip (repeatedLoop h n) fun _ => pure trivial

theorem slice (e : Elem T) {item : P β T} (h : Inv I (fun _ => True) item) (len : Nat) :
    Inv I (fun _ => True) (P.slice e item len : P β (Cow T)) := by
  refine skip (sliceDirect s e len) fun r => ?_
  split
  · exact pure trivial
  · exact skip (skip (safeCapacityBound _) fun _ => skip (alloc _) fun _ => repeatedLoop h _) fun _ => pure trivial

theorem u8 : Inv I (fun _ => True) (parseU8 : P β U8) := skip (array s 1) fun _ => pure trivial
theorem u16 : Inv I (fun _ => True) (parseU16 : P β U16) := skip (array s 2) fun _ => skip config fun _ => pure trivial
theorem u32 : Inv I (fun _ => True) (parseU32 : P β U32) := skip (array s 4) fun _ => skip config fun _ => pure trivial
theorem u64 : Inv I (fun _ => True) (parseU64 : P β U64) := skip (array s 8) fun _ => skip config fun _ => pure trivial

omit s in
theorem parseIf (c : Bool) {m : P β α} (h : c = true → Inv I Q m) :
    Inv I (fun x => x.isSome = c ∧ ∀ a, x = some a → Q a) (Perf.parseIf c m) := by
  cases c with
  | true => exact bind (h rfl) fun a ha => pure ⟨rfl, fun b hb => by cases hb; exact ha⟩
  | false => exact pure ⟨rfl, nofun⟩

omit s in
theorem cowSplitAt (c : Cow T) (n : Nat) : Inv I (fun _ => True) (ParserM.cowSplitAt c n : P β (Cow T × Cow T)) := by
  show Inv I _ (match c.splitAt n with | some r => Pure.pure r | none => P.fault .panic)
  split
  · exact pure trivial
  · exact fault _

end Inv
end Perf
