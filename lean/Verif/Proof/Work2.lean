import Verif.Proof.Work
import Verif.Proof.Hand
/-!
# Counting changes nothing; upper bounds on what a call consumes; regions never show empty chunks
-/
namespace Perf
variable {β γ : Type} {α α' T O : Type}

/-! ## The counter is invisible -/

/-- `m` over the counting buffer does what `m'` does over the buffer itself. -/
def Strips (m : P (Counted β) α) (m' : P β α) : Prop :=
  ∀ p, (⟨(m p).res, (m p).st.uncounted, (m p).log⟩ : Out β α) = m' p.uncounted

namespace Strips

theorem pure (a : α) : Strips (Pure.pure a : P (Counted β) α) (Pure.pure a) := fun _ => rfl
theorem fault (e : Fault) : Strips (P.fault e : P (Counted β) α) (P.fault e) := fun _ => rfl
theorem config : Strips (P.config : P (Counted β) ParseConfig) P.config := fun _ => rfl
theorem offset : Strips (P.offset : P (Counted β) Nat) P.offset := fun _ => rfl
theorem alloc (n : Nat) : Strips (P.alloc n : P (Counted β) Unit) (P.alloc n) := fun _ => rfl
theorem ofExcept (x : Except Fault α) : Strips (P.ofExcept x : P (Counted β) α) (P.ofExcept x) := fun _ => rfl
theorem bind {m : P (Counted β) α} {m' : P β α} {k : α → P (Counted β) α'} {k' : α → P β α'} (h : Strips m m')
    (hk : ∀ a, Strips (k a) (k' a)) : Strips (m >>= k) (m' >>= k') := by
  intro p
  have hp := h p
  rcases hm : (m p).res with e | a
  · rw [hm] at hp
    rw [P.bind_err (P.run_eq _ hm), P.bind_err hp.symm]
  · rw [hm] at hp
    rw [P.bind_ok (P.run_eq _ hm), P.bind_ok hp.symm, ← hk a]
theorem ite {c : Prop} [Decidable c] {a b : P (Counted β) α} {a' b' : P β α} (h1 : Strips a a') (h2 : Strips b b') :
    Strips (if c then a else b) (if c then a' else b') := by
  split
  · exact h1
  · exact h2
theorem toCow (c : Chunk) : Strips (P.toCow c : P (Counted β) (Cow Byte)) (P.toCow c) := by
  rcases c with ⟨_ | _, _⟩ <;> exact fun _ => rfl
theorem pushChunk (c : Chunk) (cs : List Chunk) : Strips (P.pushChunk c cs : P (Counted β) (List Chunk)) (P.pushChunk c cs) :=
  ite (bind (toCow c) fun _ => pure _) (pure _)
theorem onChild {δ : Type} (child : Parser δ) (m : P δ α) :
    Strips (P.onChild child m : P (Counted β) (α × Parser δ)) (P.onChild child m) := by
  intro p
  unfold P.onChild
  simp only
  split <;> rfl

variable [ParseBuf β]

theorem hint : Strips (P.hint : P (Counted β) (Option Nat)) P.hint := fun _ => rfl
theorem fuel : Strips (P.fuel : P (Counted β) Nat) P.fuel := fun _ => rfl
theorem chunk : Strips (P.chunk : P (Counted β) Chunk) P.chunk := fun _ => rfl
theorem chunkResult : Strips (P.chunkResult : P (Counted β) (Except ParseError Chunk)) P.chunkResult := by
  intro p
  have h : (ParseBuf.chunk p.data).1 = (ParseBuf.chunk p.uncounted.data).1 := rfl
  unfold P.chunkResult
  rw [h]
  rcases (ParseBuf.chunk p.uncounted.data).1 with f | c
  · cases f <;> rfl
  · rfl
theorem advance (n : Nat) : Strips (P.advance n : P (Counted β) Unit) (P.advance n) := by
  intro p
  unfold P.advance
  rcases hb : ParseBuf.advance p.data.buf.buf n with _ | b
  · have h1 : ParseBuf.advance p.data n = none := by
      show ((ParseBuf.advance p.data.buf.buf n).map _).map _ = none
      rw [hb]; rfl
    have h2 : ParseBuf.advance p.uncounted.data n = none := by
      show (ParseBuf.advance p.data.buf.buf n).map _ = none
      rw [hb]; rfl
    rw [h1, h2]
  · have h1 : ParseBuf.advance p.data n = some ⟨⟨b, p.data.buf.calls + 1⟩, p.data.offset + n⟩ := by
      show ((ParseBuf.advance p.data.buf.buf n).map _).map _ = _
      rw [hb]; rfl
    have h2 : ParseBuf.advance p.uncounted.data n = some ⟨b, p.data.offset + n⟩ := by
      show (ParseBuf.advance p.data.buf.buf n).map _ = _
      rw [hb]; rfl
    rw [h1, h2]
    rfl

theorem toSliceLoop : ∀ (n len : Nat) (bs : List Byte),
    Strips (P.toSliceLoop n len bs : P (Counted β) (List Byte)) (P.toSliceLoop n len bs)
  | 0, _, _ => fault _
  | n + 1, _, _ => ite (pure _) (bind chunk fun _ => bind (advance _) fun _ => toSliceLoop n _ _)
theorem toSlice (len : Nat) : Strips (P.toSlice len : P (Counted β) (List Byte)) (P.toSlice len) :=
  bind fuel fun _ => toSliceLoop _ _ _
theorem bytesSlowLoop : ∀ (n len : Nat) (bs : List Byte),
    Strips (P.bytesSlowLoop n len bs : P (Counted β) (List Byte)) (P.bytesSlowLoop n len bs)
  | 0, _, _ => fault _
  | n + 1, _, _ => ite (pure _) (bind chunk fun _ => bind (advance _) fun _ => bytesSlowLoop n _ _)
theorem ignoredLoop : ∀ (n len : Nat), Strips (P.ignoredLoop n len : P (Counted β) Unit) (P.ignoredLoop n len)
  | 0, _ => fault _
  | n + 1, _ => ite (pure _) (bind chunk fun _ => bind (advance _) fun _ => ignoredLoop n _)
theorem cursorLoop : ∀ (n len : Nat) (cs : List Chunk),
    Strips (P.cursorLoop n len cs : P (Counted β) (List Chunk)) (P.cursorLoop n len cs)
  | 0, _, _ => fault _
  | n + 1, _, _ => ite (pure _) (bind chunk fun _ => bind (pushChunk _ _) fun _ => bind (advance _) fun _ => cursorLoop n _ _)
theorem splitAt (len : Nat) : Strips (P.splitAt len : P (Counted β) (Parser Cursor)) (P.splitAt len) :=
  bind (bind fuel fun _ => bind (cursorLoop _ _ _) fun _ => pure _) fun _ => bind config fun _ => pure _
theorem restLoop : ∀ (n : Nat) (c : Cow Byte), Strips (P.restLoop n c : P (Counted β) (Cow Byte)) (P.restLoop n c)
  | 0, _ => fault _
  | n + 1, c => by
    refine bind chunkResult fun r => ?_
    cases r with
    | ok c => exact bind (advance _) fun _ => restLoop n _
    | error e => exact ite (pure _) (fault _)
theorem safeCapacityBound (n : Nat) : Strips (P.safeCapacityBound n : P (Counted β) Nat) (P.safeCapacityBound n) :=
  ite (pure _) (bind hint fun _ => pure _)
theorem bytesDirect (len : Nat) : Strips (P.bytesDirect len : P (Counted β) (Option (Nat × List Byte))) (P.bytesDirect len) := by
  refine bind chunk fun c => ?_
  rcases c with ⟨_ | _, _⟩
  · exact pure _
  · exact ite (pure _) (bind (advance _) fun _ => pure _)

theorem closed : Closed (fun {α} (m : P (Counted β) α) (m' : P β α) => Strips m m') where
  pure := pure
  bind := bind
  fault e _ := fault e
  config := config
  array n := bind chunk fun _ => ite (toSlice n) (bind (advance _) fun _ => pure _)
  bytes n := by
    refine bind (bytesDirect n) fun r => ?_
    cases r with
    | some x => exact pure _
    | none =>
      exact bind hint fun _ => ite (bind (alloc _) fun _ => bind (toSlice _) fun _ => pure _)
        (bind (bind (safeCapacityBound _) fun _ => bind (alloc _) fun _ => bind fuel fun _ => bytesSlowLoop _ _ _) fun _ => pure _)
  rest := bind chunk fun _ => bind (toCow _) fun _ => bind (advance _) fun _ => bind fuel fun _ => restLoop _ _
  padded n h := ite (fault _) (bind offset fun _ => bind h fun _ => bind offset fun _ =>
    ite (pure _) (bind (bind fuel fun _ => ignoredLoop _ _) fun _ => pure _))
  slice e n h := by
    refine bind ?_ fun r => ?_
    · refine bind config fun c => ite (pure _) (ite (fault _) (bind (bytesDirect _) fun r => ?_))
      cases r with
      | none => exact pure _
      | some x => exact ite (pure _) (pure _)
    · cases r with
      | some x => exact pure _
      | none =>
        refine bind (bind (safeCapacityBound _) fun _ => bind (alloc _) fun _ => ?_) fun _ => pure _
        induction n with
        | zero => exact pure _
        | succ n ih => exact bind h fun _ => bind ih fun _ => pure _

theorem dispatch (v : Visitor Cow O) (md : Metadata) : Strips (P.dispatch v md : P (Counted β) O) (P.dispatch v md) := by
  rw [P.dispatch_eq, P.dispatch_eq]
  exact bind (closed.body md.ty) fun _ => ofExcept _

theorem metadataWithHeader (h : Header) :
    Strips (P.metadataWithHeader h : P (Counted β) (Parser Cursor × Metadata)) (P.metadataWithHeader h) :=
  ite (fault _) (bind (splitAt _) fun _ => ite (pure _) (ite (fault _) (bind (onChild _ _) fun _ =>
    bind (onChild _ _) fun _ => pure _)))

theorem recordWithHeader (v : Visitor Cow O) (h : Header) :
    Strips (P.recordWithHeader v h : P (Counted β) O) (P.recordWithHeader v h) := by
  refine bind (metadataWithHeader h) fun x => ?_
  obtain ⟨q, md⟩ := x
  have hq : ∀ {γ : Type} [ParseBuf γ] (q : Parser γ), Strips (P.recordImpl q v md : P (Counted β) O) (P.recordImpl q v md) :=
    fun q => bind (onChild _ _) fun _ => pure _
  show Strips (match q.data.buf.asSlice with
    | some data => P.recordImpl (Parser.new data q.config) v md
    | none => P.recordImpl q v md) (match q.data.buf.asSlice with
    | some data => P.recordImpl (Parser.new data q.config) v md
    | none => P.recordImpl q v md)
  cases q.data.buf.asSlice with
  | some d => exact hq _
  | none => exact hq _

theorem record (v : Visitor Cow O) : Strips (P.record v : P (Counted β) O) (P.record v) :=
  bind closed.header fun h => recordWithHeader v h

end Strips

/-! ## At most so many bytes -/

/-- Whatever happens, `m` moves forward by at most `n` bytes. -/
def AtMost (n : Nat) (m : P β α) : Prop := ∀ p, (m p).st.data.offset ≤ p.data.offset + n

namespace AtMost
variable {n k : Nat}

theorem mono {m : P β α} (h : AtMost n m) (hk : n ≤ k) : AtMost k m := fun p => Nat.le_trans (h p) (by omega)
theorem quiet {m : P β α} (h : Quiet m) : AtMost n m := fun p => by rw [h p]; omega
theorem bind {m : P β α} {c : α → P β α'} (h : AtMost n m) (hc : ∀ a, AtMost k (c a)) : AtMost (n + k) (m >>= c) := by
  intro p
  have := h p
  rcases hm : (m p).res with e | a
  · rw [P.bind_err (P.run_eq _ hm)]
    simp only
    omega
  · rw [P.bind_ok (P.run_eq _ hm)]
    have := hc a (m p).st
    simp only
    omega
theorem seq {m : P β α} {c : α → P β α'} (h : AtMost 0 m) (hc : ∀ a, AtMost k (c a)) : AtMost k (m >>= c) :=
  mono (bind h hc) (by omega)
theorem skip {m : P β α} {c : α → P β α'} (h : Quiet m) (hc : ∀ a, AtMost k (c a)) : AtMost k (m >>= c) := seq (quiet h) hc
theorem ite {c : Prop} [Decidable c] {a b : P β α} (h1 : c → AtMost n a) (h2 : ¬ c → AtMost n b) :
    AtMost n (if c then a else b) := by
  by_cases h : c
  · rw [if_pos h]; exact h1 h
  · rw [if_neg h]; exact h2 h

variable [ParseBuf β]

theorem chunk : AtMost 0 (P.chunk : P β Chunk) := fun _ => Nat.le_refl _
theorem advance (n : Nat) : AtMost n (P.advance n : P β Unit) := by
  intro p
  unfold P.advance
  rcases hb : ParseBuf.advance p.data.buf n with _ | b
  · have h1 : ParseBuf.advance p.data n = none := by
      show (ParseBuf.advance p.data.buf n).map _ = none
      rw [hb]; rfl
    rw [h1]
    exact Nat.le_add_right _ _
  · have h1 : ParseBuf.advance p.data n = some ⟨b, p.data.offset + n⟩ := by
      show (ParseBuf.advance p.data.buf n).map _ = _
      rw [hb]; rfl
    rw [h1]
    exact Nat.le_refl _
theorem toSliceLoop : ∀ (fuel len : Nat) (bs : List Byte), AtMost len (P.toSliceLoop fuel len bs : P β (List Byte))
  | 0, _, _ => quiet (Quiet.fault _)
  | fuel + 1, len, _ => ite (fun _ => quiet (Quiet.pure _)) fun _ => seq chunk fun c =>
    mono (bind (advance (min c.data.length len)) fun _ => toSliceLoop fuel _ _) (by omega)
theorem array (n : Nat) : AtMost n (P.array n : P β (List Byte)) :=
  seq chunk fun _ => ite (fun _ => skip Quiet.fuel fun _ => toSliceLoop _ _ _) fun _ =>
    bind (k := 0) (advance n) fun _ => quiet (Quiet.pure _)
theorem cursorLoop : ∀ (fuel len : Nat) (cs : List Chunk), AtMost len (P.cursorLoop fuel len cs : P β (List Chunk))
  | 0, _, _ => quiet (Quiet.fault _)
  | fuel + 1, len, cs => ite (fun _ => quiet (Quiet.pure _)) fun _ => seq chunk fun c => skip (Quiet.pushChunk _ _) fun _ =>
    mono (bind (advance (c.truncate len).data.length) fun _ => cursorLoop fuel _ _) (by have := c.truncate_le len; omega)
theorem splitAt (len : Nat) : AtMost len (P.splitAt len : P β (Parser Cursor)) :=
  bind (k := 0) (skip Quiet.fuel fun _ => bind (k := 0) (cursorLoop _ _ _) fun _ => quiet (Quiet.pure _)) fun _ =>
    skip Quiet.config fun _ => quiet (Quiet.pure _)
theorem header : AtMost 8 (parseHeader : P β Header) :=
  bind (n := 4) (k := 4) (bind (k := 0) (array 4) fun _ => skip Quiet.config fun _ => quiet (Quiet.pure _)) fun _ =>
  bind (n := 2) (k := 2) (bind (k := 0) (array 2) fun _ => skip Quiet.config fun _ => quiet (Quiet.pure _)) fun _ =>
  bind (n := 2) (k := 0) (bind (k := 0) (array 2) fun _ => skip Quiet.config fun _ => quiet (Quiet.pure _)) fun _ =>
  quiet (Quiet.pure _)
theorem recordWithHeader (v : Visitor Cow O) (h : Header) : AtMost (h.size.toNat - 8) (P.recordWithHeader v h : P β O) := by
  refine bind (k := 0) ?_ fun x => ?_
  · refine ite (fun _ => quiet (Quiet.fault _)) fun _ => bind (k := 0) (splitAt _) fun _ => ?_
    exact ite (fun _ => quiet (Quiet.pure _)) fun _ => ite (fun _ => quiet (Quiet.fault _)) fun _ =>
      skip (Quiet.onChild _ _) fun _ => skip (Quiet.onChild _ _) fun _ => quiet (Quiet.pure _)
  · obtain ⟨q, md⟩ := x
    have hq : ∀ {γ : Type} [ParseBuf γ] (q : Parser γ), AtMost 0 (P.recordImpl q v md : P β O) :=
      fun q => skip (Quiet.onChild _ _) fun _ => quiet (Quiet.pure _)
    show AtMost 0 (match q.data.buf.asSlice with
      | some data => P.recordImpl (Parser.new data q.config) v md
      | none => P.recordImpl q v md)
    split
    · exact hq _
    · exact hq _

end AtMost

/-! ## Which buffers are prompt -/

theorem Prompt.slice : Prompt (fun _ : Slice => True) where
  chunk _ _ := trivial
  advance _ _ _ _ _ := trivial
  ne s c _ h := by
    have h' : (if s.data = [] then .error (.err .eof) else .ok ⟨.external s.addr, s.data⟩ : Except Fault Chunk) = .ok c := h
    split at h'
    · cases h'
    · cases h'; assumption

theorem Prompt.bufReader : Prompt (fun _ : BufReader => True) where
  chunk _ _ := trivial
  advance _ _ _ _ _ := trivial
  ne r c _ h := by
    simp only [ParseBuf.chunk] at h
    rcases hf : r.fillBuf with ⟨_ | _ | _, _⟩ <;> rw [hf] at h <;> cases h
    simp

/-- The cursor stands inside its first chunk. -/
def Cursor.Inside (c : Cursor) : Prop := ∀ d ds, c.chunks = d :: ds → c.offset < d.data.length

theorem Cursor.slowLoop_inside : ∀ (cs : List Chunk) (off : Nat) (d : Chunk) (ds : List Chunk),
    (Cursor.slowLoop cs off).1 = d :: ds → (Cursor.slowLoop cs off).2 < d.data.length
  | [], _, _, _, h => by cases h
  | c :: cs, off, d, ds, h => by
    unfold Cursor.slowLoop at h ⊢
    split at h
    · rename_i hl
      rw [if_pos hl]
      cases h
      exact hl
    · rename_i hl
      rw [if_neg hl]
      exact Cursor.slowLoop_inside cs _ d ds h

theorem Prompt.cursor : Prompt Cursor.Inside where
  chunk _ h := h
  advance c n c' _ ha := by
    have ha' : c.advance n = some c' := ha
    have slow : ({ c with offset := c.offset + n } : Cursor).advanceSlow = some c' → c'.Inside := by
      intro hs d ds hd
      have hx := Cursor.slowLoop_inside c.chunks (c.offset + n) d ds
      unfold Cursor.advanceSlow at hs
      split at hs
      · split at hs
        · cases hs
          cases hd
        · cases hs
      · rename_i e es off ho
        cases hs
        rw [ho] at hx
        cases hd
        exact hx rfl
    unfold Cursor.advance at ha'
    split at ha'
    · cases ha'
    · split at ha'
      · cases ha'
      · simp only at ha'
        split at ha'
        · rename_i x xs hx
          split at ha'
          · rename_i hlt
            cases ha'
            intro d ds hd
            have hx' : c.chunks = x :: xs := hx
            have hd' : c.chunks = d :: ds := hd
            rw [hx'] at hd'
            cases hd'
            exact hlt
          · exact slow ha'
        · exact slow ha'
  ne c d h hd hn := by
    have hd' : c.chunk = .ok d := hd
    unfold Cursor.chunk at hd'
    split at hd'
    · cases hd'
    · rename_i x xs hx
      have := h x xs hx
      split at hd'
      · cases hd'
        have h0 : (x.data.drop c.offset).length = 0 := congrArg List.length hn
        rw [List.length_drop] at h0
        omega
      · cases hd'

theorem Prompt.tracking [ParseBuf β] {J : β → Prop} (h : Prompt J) : Prompt (fun t : Tracking β => J t.buf) where
  chunk t := h.chunk t.buf
  advance t n t' ht ha := by
    have ha' : (ParseBuf.advance t.buf n).map _ = some t' := ha
    rcases hb : ParseBuf.advance t.buf n with _ | b
    · rw [hb] at ha'; cases ha'
    · rw [hb] at ha'; cases ha'
      exact h.advance _ _ _ ht hb
  ne t := h.ne t.buf

/-- What the calculus needs. -/
theorem Prompt.busy [ParseBuf β] {J : β → Prop} (h : Prompt J) : Busy (fun p : Parser (Counted β) => J p.data.buf.buf) where
  chunk p hp := h.chunk p.data.buf.buf hp
  advance p n hp := by
    unfold P.advance
    rcases hb : ParseBuf.advance p.data.buf.buf n with _ | b
    · have h1 : ParseBuf.advance p.data n = none := by
        show ((ParseBuf.advance p.data.buf.buf n).map _).map _ = none
        rw [hb]; rfl
      rw [h1]
      exact hp
    · have h1 : ParseBuf.advance p.data n = some ⟨⟨b, p.data.buf.calls + 1⟩, p.data.offset + n⟩ := by
        show ((ParseBuf.advance p.data.buf.buf n).map _).map _ = _
        rw [hb]; rfl
      rw [h1]
      exact h.advance _ _ _ hp hb
  ne p c hp hc := h.ne p.data.buf.buf c hp hc

/-- What `split_at` hands out stands inside its first chunk. -/
theorem Inv.inside [ParseBuf β] (n : Nat) :
    Inv (fun _ => True) (fun c => c.data.buf.Inside) (P.splitAt n : P β (Parser Cursor)) := by
  have st : Stable (fun _ : Parser β => True) := ⟨fun _ _ => trivial, fun _ _ _ => trivial⟩
  have loop : ∀ (fuel len : Nat) (cs : List Chunk), (∀ d ∈ cs, d.data ≠ []) →
      Inv (fun _ => True) (fun x => ∀ d ∈ x, d.data ≠ []) (P.cursorLoop fuel len cs : P β (List Chunk)) := by
    intro fuel
    induction fuel with
    | zero => exact fun _ _ _ => Inv.fault _
    | succ fuel ih =>
      intro len cs hcs
      refine Inv.ite (fun _ => Inv.pure hcs) fun _ => Inv.skip (Inv.chunk st) fun c => ?_
      refine Inv.bind (Q := fun x : List Chunk => ∀ d ∈ x, d.data ≠ []) ?_ fun x hx =>
        Inv.skip (Inv.advance st _) fun _ => ih _ _ hx
      refine Inv.ite (fun hl => Inv.skip ((Inv.toCow _).mono fun _ _ => trivial) fun _ => Inv.pure ?_) fun _ => Inv.pure hcs
      intro d hd
      rcases List.mem_cons.1 hd with rfl | hd
      · exact List.ne_nil_of_length_pos hl
      · exact hcs d hd
  refine Inv.bind (Q := fun c : Cursor => c.Inside) (Inv.skip Inv.fuel fun k => Inv.bind (loop k n [] (by simp)) fun x hx =>
    Inv.pure ?_) fun c hc => Inv.skip Inv.config fun _ => Inv.pure hc
  intro d ds hd
  have : d.data ≠ [] := hx d (by
    have h1 : d ∈ x.reverse := by
      have h2 : x.reverse = d :: ds := hd
      rw [h2]; exact List.mem_cons_self
    exact List.mem_reverse.1 h1)
  exact List.length_pos_iff.2 this

end Perf
