import Verif.Proof.Raw
import Verif.Proof.User
/-!
# Buffers that break the rules

A `ParseBuf` with any behaviour at all: chunks may be empty, may change from one call to the next, `advance` may do anything,
`remaining_hint` may be wrong. A record is first copied out of the buffer (`split_at`); what happens to the copy is what happens
to any well-behaved buffer with the same bytes.
-/
namespace Perf
variable {β γ δ : Type} [ParseBuf β] [ParseBuf γ] {α α' T O : Type}

/-! ## What `split_at` returns -/

omit [ParseBuf β] in
theorem P.pushChunk_any (c : Chunk) (cs : List Chunk) (p : Parser β) :
    ∃ l, (∀ n ∈ l, n ≤ c.data.length) ∧
      P.pushChunk c cs p = ⟨.ok (if c.data.length > 0 then c :: cs else cs), p, l⟩ := by
  unfold P.pushChunk
  by_cases h : c.data.length > 0
  · obtain ⟨l, hl, hr⟩ := P.toCow_run c p
    refine ⟨l, hl, ?_⟩
    rw [P.ite_pos h, P.bind_ok hr, if_pos h]
    simp [P.pure_run]
  · refine ⟨[], nofun, ?_⟩
    rw [P.ite_neg h, if_neg h]; rfl

/-- The pieces of a copy: none empty, `len` bytes in all. -/
structure Copied (len : Nat) (cs : List Chunk) : Prop where
  nonempty : ∀ d ∈ cs, d.data ≠ []
  total : chunkBytes cs = len

theorem Copied.push {len : Nat} {cs : List Chunk} (h : Copied len cs) (c : Chunk) :
    Copied (len + c.data.length) (if c.data.length > 0 then c :: cs else cs) := by
  split
  · rename_i hc
    refine ⟨fun d hd => ?_, by simp only [chunkBytes, h.total]; omega⟩
    rcases List.mem_cons.1 hd with rfl | hd
    · exact List.length_pos_iff.1 hc
    · exact h.nonempty d hd
  · rename_i hc
    exact ⟨h.nonempty, by rw [h.total]; omega⟩

theorem Post.cursorLoop : ∀ (fuel len k : Nat) (cs : List Chunk), Copied k cs →
    Post (Copied (k + len)) (P.cursorLoop fuel len cs : P β (List Chunk))
  | 0, _, _, _, _ => fun _ _ h => by cases h
  | fuel + 1, len, k, cs, h => by
    unfold P.cursorLoop
    refine Post.ite (fun h0 => Post.pure (by rw [h0]; exact h)) fun _ => Post.skip fun c => ?_
    refine Post.bind (Q := Copied (k + (c.truncate len).data.length)) (fun p cs' hcs => ?_) fun cs' h' => Post.skip fun _ => ?_
    · obtain ⟨l, _, hr⟩ := P.pushChunk_any (c.truncate len) cs p
      rw [hr] at hcs
      cases hcs
      exact h.push _
    · have : (c.truncate len).data.length ≤ len := by
        rw [Chunk.truncate_data, List.length_take]; omega
      refine (Post.cursorLoop fuel _ _ _ h').mono fun o ho => ?_
      rw [show k + len = k + (c.truncate len).data.length + (len - (c.truncate len).data.length) by omega]
      exact ho

/-- The parser `split_at` returns: all of `len` bytes, in pieces none of which is empty, from the start. -/
structure CopyOf (len : Nat) (p : Parser β) (c : Parser Cursor) : Prop where
  config : c.config = p.config
  pieces : Copied len c.data.buf.chunks
  fresh : c.data = ⟨⟨c.data.buf.chunks, 0, len⟩, 0⟩

theorem P.splitAt_any {len : Nat} {p : Parser β} {c : Parser Cursor} (h : (P.splitAt len p).res = .ok c) : CopyOf len p c := by
  unfold P.splitAt at h
  obtain ⟨cur, h1, h2⟩ := P.bind_res h
  obtain ⟨cfg, h3, h4⟩ := P.bind_res h2
  cases h4
  cases h3
  unfold P.newCursor at h1
  obtain ⟨n, h5, h6⟩ := P.bind_res h1
  obtain ⟨cs, h7, h8⟩ := P.bind_res h6
  cases h8
  have hc := Post.cursorLoop n len 0 [] ⟨nofun, rfl⟩ _ cs h7
  rw [Nat.zero_add] at hc
  refine ⟨?_, ⟨fun d hd => hc.nonempty d (List.mem_reverse.1 hd), ?_⟩, rfl⟩
  · exact (Inv.skip (I := fun q : Parser β => q.config = p.config) (R := fun _ => True) Inv.fuel
      (fun n => Inv.skip (Inv.cursorLoop (Stable.config p.config) n len []) fun _ => Inv.pure trivial) p rfl).1
  · rw [← hc.total]; exact chunkBytes_reverse cs

omit [ParseBuf β] in
/-- What the copy stands for. -/
theorem CopyOf.rep {len : Nat} {p : Parser β} {c : Parser Cursor} (h : CopyOf len p c) (hl : len < usizeLimit) (hw : p.config.Wf) :
    RepP c ⟨⟨chunksData c.data.buf.chunks, .unknown, .eof⟩, 0, p.config⟩ := by
  obtain ⟨cfg, ⟨⟨chunks, offset, len'⟩, off⟩⟩ := c
  obtain ⟨h1, h2, h3⟩ := h
  cases h3
  exact ⟨Cursor.Rep.fresh h2.nonempty (Nat.le_of_eq h2.total) hl (ChunksAl.unknown _), rfl, h1, hw⟩

theorem Cursor.chunk_whole (d : Chunk) (ds : List Chunk) (len : Nat) : Cursor.chunk ⟨d :: ds, 0, len⟩ = .ok d := by
  obtain ⟨loc, data⟩ := d
  unfold Cursor.chunk
  simp only [Nat.zero_le, if_true, List.drop_zero]
  cases loc <;> rfl

theorem Cursor.advance_whole {d : Chunk} {ds : List Chunk} {len : Nat} (hn : ∀ e ∈ ds, e.data ≠ []) (h : d.data.length ≤ len)
    (hl : len < usizeLimit) : Cursor.advance ⟨d :: ds, 0, len⟩ d.data.length = some ⟨ds, 0, len⟩ := by
  unfold Cursor.advance
  dsimp only
  rw [if_neg (by omega), if_neg (by omega), if_neg (by omega)]
  unfold Cursor.advanceSlow Cursor.slowLoop
  rw [if_neg (by simp)]
  simp only [Nat.zero_add, Nat.sub_self]
  cases ds with
  | nil => rfl
  | cons e es =>
    have : 0 < e.data.length := List.length_pos_iff.2 (hn e (by simp))
    simp [Cursor.slowLoop, this]

theorem P.cursorLoop_whole (cfg : ParseConfig) (len : Nat) (hl : len < usizeLimit) : ∀ (fuel : Nat) (cs acc : List Chunk) (o : Nat),
    (∀ d ∈ cs, d.data ≠ []) → chunkBytes cs ≤ len → chunkBytes cs < fuel →
    ∃ (q : Parser Cursor) (l : List Nat), (∀ n ∈ l, n ≤ len) ∧ q.config = cfg ∧
      P.cursorLoop fuel (chunkBytes cs) acc (⟨cfg, ⟨⟨cs, 0, len⟩, o⟩⟩ : Parser Cursor) = ⟨.ok (cs.reverse ++ acc), q, l⟩
  | 0, _, _, _, _, _, hf => by omega
  | fuel + 1, [], acc, o, _, _, _ => ⟨_, [], nofun, rfl, rfl⟩
  | fuel + 1, d :: ds, acc, o, hn, hle, hf => by
    have hd : 0 < d.data.length := List.length_pos_iff.2 (hn d (by simp))
    simp only [chunkBytes] at hle hf
    unfold P.cursorLoop
    rw [P.ite_neg (by simp only [chunkBytes]; omega)]
    have h1 : P.chunk (⟨cfg, ⟨⟨d :: ds, 0, len⟩, o⟩⟩ : Parser Cursor) = ⟨.ok d, ⟨cfg, ⟨⟨d :: ds, 0, len⟩, o⟩⟩, []⟩ := by
      show (⟨Cursor.chunk ⟨d :: ds, 0, len⟩, _, []⟩ : Out Cursor Chunk) = _
      rw [Cursor.chunk_whole]; rfl
    rw [P.bind_nil h1]
    have ht : d.truncate (chunkBytes (d :: ds)) = d := by
      unfold Chunk.truncate
      rw [if_pos (by simp only [chunkBytes]; omega)]
    rw [ht]
    obtain ⟨l, h2, h3⟩ := P.pushChunk_any d acc (⟨cfg, ⟨⟨d :: ds, 0, len⟩, o⟩⟩ : Parser Cursor)
    rw [P.bind_ok h3, if_pos hd]
    have h4 : P.advance d.data.length (⟨cfg, ⟨⟨d :: ds, 0, len⟩, o⟩⟩ : Parser Cursor) =
        ⟨.ok (), ⟨cfg, ⟨⟨ds, 0, len⟩, o + d.data.length⟩⟩, []⟩ := by
      have : ParseBuf.advance (⟨⟨d :: ds, 0, len⟩, o⟩ : Tracking Cursor) d.data.length = some ⟨⟨ds, 0, len⟩, o + d.data.length⟩ := by
        show (Cursor.advance ⟨d :: ds, 0, len⟩ d.data.length).map _ = _
        rw [Cursor.advance_whole (fun e he => hn e (List.mem_cons_of_mem _ he)) (by omega) hl]; rfl
      unfold P.advance
      dsimp only
      rw [this]
    rw [P.bind_nil h4, show chunkBytes (d :: ds) - d.data.length = chunkBytes ds by simp only [chunkBytes]; omega]
    obtain ⟨q, l', h5, h6, h7⟩ := P.cursorLoop_whole cfg len hl fuel ds (d :: acc) (o + d.data.length)
      (fun e he => hn e (List.mem_cons_of_mem _ he)) (by omega) (by omega)
    rw [h7]
    refine ⟨q, l ++ l', fun n hm => ?_, h6, by simp⟩
    rcases List.mem_append.1 hm with hm | hm
    · have := h2 n hm; omega
    · exact h5 n hm

omit [ParseBuf β] in
/-- Splitting all of a copy off the copy gives the copy. -/
theorem CopyOf.again {len : Nat} {p : Parser β} {c : Parser Cursor} (h : CopyOf len p c) (hl : len < usizeLimit) :
    ∃ q l, (∀ n ∈ l, n ≤ len) ∧ P.splitAt len c = ⟨.ok c, q, l⟩ := by
  obtain ⟨cfg, ⟨⟨chunks, offset, len'⟩, off⟩⟩ := c
  obtain ⟨h1, h2, h3⟩ := h
  cases h3
  dsimp only at h1 h2
  obtain ⟨q, l, h4, h5, h6⟩ := P.cursorLoop_whole cfg len hl (chunkBytes chunks - 0 + 1) chunks [] 0 h2.nonempty
    (Nat.le_of_eq h2.total) (by omega)
  rw [h2.total, List.append_nil] at h6
  refine ⟨q, l, h4, ?_⟩
  unfold P.splitAt
  have h7 : P.newCursor len (⟨cfg, ⟨⟨chunks, 0, len⟩, 0⟩⟩ : Parser Cursor) = ⟨.ok ⟨chunks, 0, len⟩, q, l⟩ := by
    unfold P.newCursor
    rw [P.bind_nil (P.fuel_run _)]
    show (P.cursorLoop (chunkBytes chunks - 0 + 1) len [] >>= _) _ = _
    rw [h2.total, P.bind_ok h6, P.pure_run]
    simp
  rw [P.bind_ok h7]
  have h8 : (P.config : P Cursor ParseConfig) q = ⟨.ok cfg, q, []⟩ := by rw [← h5]; rfl
  rw [P.bind_nil h8, P.pure_run]
  simp [Parser.new]

/-! ## A record is read from the copy -/

omit [ParseBuf β] [ParseBuf γ] in
/-- Both do the same and leave their parsers alone. -/
def Detached (m : P β α) (m' : P γ α) : Prop := ∃ r l, (∀ p, m p = ⟨r, p, l⟩) ∧ ∀ q, m' q = ⟨r, q, l⟩

namespace Detached
omit [ParseBuf β] [ParseBuf γ]

theorem pure (a : α) : Detached (Pure.pure a : P β α) (Pure.pure a : P γ α) := ⟨.ok a, [], fun _ => rfl, fun _ => rfl⟩
theorem fail (e : ParseError) : Detached (P.fail e : P β α) (P.fail e : P γ α) := ⟨.error (.err e), [], fun _ => rfl, fun _ => rfl⟩
theorem onChild (c : Parser δ) (m : P δ α) : Detached (P.onChild c m : P β _) (P.onChild c m : P γ _) := by
  unfold P.onChild
  rcases m c with ⟨e | a, d, l⟩
  · exact ⟨.error e, l, fun _ => rfl, fun _ => rfl⟩
  · exact ⟨.ok (a, d), l, fun _ => rfl, fun _ => rfl⟩
theorem bind {m : P β α} {m' : P γ α} {k : α → P β α'} {k' : α → P γ α'} (h : Detached m m') (hk : ∀ a, Detached (k a) (k' a)) :
    Detached (m >>= k) (m' >>= k') := by
  obtain ⟨r, l, h1, h2⟩ := h
  cases r with
  | error e => exact ⟨.error e, l, fun p => P.bind_err (h1 p), fun p => P.bind_err (h2 p)⟩
  | ok a =>
    obtain ⟨r', l', h3, h4⟩ := hk a
    exact ⟨r', l ++ l', fun p => by rw [P.bind_ok (h1 p), h3], fun p => by rw [P.bind_ok (h2 p), h4]⟩
theorem ite {c : Prop} [Decidable c] {a b : P β α} {a' b' : P γ α} (h : Detached a a') (h' : Detached b b') :
    Detached (if c then a else b) (if c then a' else b') := by
  split
  · exact h
  · exact h'
end Detached

/-- `parse_metadata_with_header` after the record was split off, src/parse.rs:515-545. -/
def P.metadataTail (h : Header) (rp : Parser Cursor) : P β (Parser Cursor × Metadata) :=
  if h.type_.toNat = 1 ∨ h.type_.toNat = 9 then pure (rp, Metadata.new h SampleId.default)
  else if h.size.toNat - 8 < SampleId.estimateLen rp.config then
    P.fail (.custom .invalidRecord ("config has sample_id_all bit set but record does not have enough data " ++
      "to store the sample_id"))
  else do
    let (p, rp) ← P.onChild rp (P.splitAt (h.size.toNat - 8 - SampleId.estimateLen rp.config))
    let (sampleId, _) ← P.onChild rp parseSampleId
    pure (p, Metadata.new h sampleId)

/-- `parse_record_with_header` after the metadata. -/
def P.recordTail (v : Visitor Cow O) (x : Parser Cursor × Metadata) : P β O :=
  match x.1.data.buf.asSlice with
  | some data => P.recordImpl (Parser.new data x.1.config) v x.2
  | none => P.recordImpl x.1 v x.2

theorem P.metadataWithHeader_split (h : Header) : (P.metadataWithHeader h : P β _) =
    if h.size.toNat < 8 then P.fail (.custom .invalidRecord "header size was too small to be valid")
    else P.splitAt (h.size.toNat - 8) >>= P.metadataTail h := rfl

theorem P.recordWithHeader_split (v : Visitor Cow O) (h : Header) : (P.recordWithHeader v h : P β O) =
    (P.metadataWithHeader h >>= P.recordTail v) := rfl

omit [ParseBuf β] [ParseBuf γ] in
theorem Detached.metadataTail (h : Header) (c : Parser Cursor) :
    Detached (P.metadataTail h c : P β _) (P.metadataTail h c : P γ _) :=
  Detached.ite (Detached.pure _) (Detached.ite (Detached.fail _) (Detached.bind (Detached.onChild _ _) fun _ =>
    Detached.bind (Detached.onChild _ _) fun _ => Detached.pure _))

omit [ParseBuf β] [ParseBuf γ] in
theorem Detached.recordTail (v : Visitor Cow O) (x : Parser Cursor × Metadata) :
    Detached (P.recordTail v x : P β O) (P.recordTail v x : P γ O) := by
  unfold P.recordTail
  split
  · exact Detached.bind (Detached.onChild _ _) fun _ => Detached.pure _
  · exact Detached.bind (Detached.onChild _ _) fun _ => Detached.pure _

/-- A run of `m` on `p` against a run of the same function on a copy. -/
structure AsCopy (p : Parser β) (h : Header) (o : Out β α) (m : P Cursor α) : Prop where
  /-- Too small a header; or the buffer fails before the record is complete; or the same result as on the copy. -/
  cases : (h.size.toNat < 8 ∧ o.res = .error (.err (.custom .invalidRecord "header size was too small to be valid")) ∧ o.log = []) ∨
    (8 ≤ h.size.toNat ∧ ∃ e, (P.splitAt (h.size.toNat - 8) p).res = .error e ∧ o.res = .error e ∧ o.log = (P.splitAt (h.size.toNat - 8) p).log) ∨
    (8 ≤ h.size.toNat ∧ ∃ c, (P.splitAt (h.size.toNat - 8) p).res = .ok c ∧ CopyOf (h.size.toNat - 8) p c ∧ o.res = (m c).res ∧
      o.st = (P.splitAt (h.size.toNat - 8) p).st ∧
      ∃ l l', o.log = (P.splitAt (h.size.toNat - 8) p).log ++ l ∧ (m c).log = l' ++ l)

theorem P.metadata_copy (p : Parser β) (h : Header) :
    AsCopy p h (P.metadataWithHeader h p) (P.metadataWithHeader h : P Cursor _) := by
  constructor
  rw [P.metadataWithHeader_split, P.metadataWithHeader_split]
  by_cases h8 : h.size.toNat < 8
  · rw [if_pos h8]
    exact .inl ⟨h8, rfl, rfl⟩
  · rw [if_neg h8, if_neg h8]
    rcases hs : P.splitAt (h.size.toNat - 8) p with ⟨e | c, q, l⟩
    · rw [P.bind_err hs]
      exact .inr (.inl ⟨by omega, e, rfl, rfl, rfl⟩)
    · have hc := P.splitAt_any (by rw [hs] : (P.splitAt (h.size.toNat - 8) p).res = .ok c)
      have := h.size_lt
      obtain ⟨q', l', _, h2⟩ := hc.again (by unfold usizeLimit; omega)
      obtain ⟨r, l2, h3, h4⟩ := Detached.metadataTail (β := β) (γ := Cursor) h c
      refine .inr (.inr ⟨by omega, c, rfl, hc, ?_⟩)
      rw [P.bind_ok hs, P.bind_ok h2, h3, h4]
      exact ⟨rfl, rfl, l2, l', rfl, rfl⟩

theorem AsCopy.bind {p : Parser β} {h : Header} {m : P β α} {m' : P Cursor α} {k : α → P β α'} {k' : α → P Cursor α'}
    (hm : AsCopy p h (m p) m') (hk : ∀ a, Detached (k a) (k' a)) : AsCopy p h ((m >>= k) p) (m' >>= k') := by
  constructor
  rcases hm.cases with ⟨h1, h2, h3⟩ | ⟨h1, e, h2, h3, h4⟩ | ⟨h1, c, h2, h3, h4, h5, l, l', h6, h7⟩
  · rw [P.bind_err (P.run_eq _ h2)]
    exact .inl ⟨h1, rfl, h3⟩
  · rw [P.bind_err (P.run_eq _ h3)]
    exact .inr (.inl ⟨h1, e, h2, rfl, h4⟩)
  · refine .inr (.inr ⟨h1, c, h2, h3, ?_⟩)
    rcases hr : (m p).res with e | a
    · rw [hr] at h4
      rw [P.bind_err (P.run_eq _ hr), P.bind_err (P.run_eq _ h4.symm)]
      exact ⟨rfl, h5, l, l', h6, h7⟩
    · rw [hr] at h4
      obtain ⟨r, l2, h8, h9⟩ := hk a
      rw [P.bind_ok (P.run_eq _ hr), P.bind_ok (P.run_eq _ h4.symm), h8, h9]
      exact ⟨rfl, h5, l ++ l2, l', by rw [h6, List.append_assoc], by rw [h7, List.append_assoc]⟩

theorem P.record_copy (p : Parser β) (v : Visitor Cow O) (h : Header) :
    AsCopy p h (P.recordWithHeader v h p) (P.recordWithHeader v h : P Cursor O) := by
  rw [P.recordWithHeader_split, P.recordWithHeader_split]
  exact AsCopy.bind (P.metadata_copy p h) fun x => Detached.recordTail v x

/-! ## Memory requests -/

/-- Every memory request of `m` is for at most `B` bytes. -/
def Asks (B : Nat) (m : P β α) : Prop := ∀ p, LogLe (m p).log B

namespace Asks
variable {B : Nat}
omit [ParseBuf β]

theorem nil {m : P β α} (h : ∀ p, (m p).log = []) : Asks B m := fun p => by rw [h p]; exact LogLe.nil B
theorem pure (a : α) : Asks B (Pure.pure a : P β α) := nil fun _ => rfl
theorem bind {m : P β α} {k : α → P β α'} (h : Asks B m) (hk : ∀ a, Asks B (k a)) : Asks B (m >>= k) := by
  intro p
  have h1 := h p
  rcases hm : m p with ⟨e | a, q, l⟩
  · rw [P.bind_err hm]; rw [hm] at h1; exact h1
  · rw [P.bind_ok hm]; rw [hm] at h1
    intro n hn
    rcases List.mem_append.1 hn with hn | hn
    · exact h1 n hn
    · exact hk a q n hn
theorem ite {c : Prop} [Decidable c] {a b : P β α} (h : c → Asks B a) (h' : ¬ c → Asks B b) : Asks B (if c then a else b) := by
  split
  · exact h ‹_›
  · exact h' ‹_›
theorem config : Asks B (P.config : P β ParseConfig) := nil fun _ => rfl
end Asks

theorem Asks.advance {B : Nat} (n : Nat) : Asks B (P.advance n : P β Unit) := by
  refine Asks.nil fun p => ?_
  unfold P.advance
  split <;> rfl

theorem Asks.cursorLoop {B : Nat} : ∀ (fuel len : Nat) (cs : List Chunk), len ≤ B → Asks B (P.cursorLoop fuel len cs : P β (List Chunk))
  | 0, _, _, _ => Asks.nil fun _ => rfl
  | fuel + 1, len, cs, h => by
    unfold P.cursorLoop
    refine Asks.ite (fun _ => Asks.pure _) fun _ => Asks.bind (Asks.nil fun _ => rfl) fun c => Asks.bind (fun p => ?_) fun _ =>
      Asks.bind (Asks.advance _) fun _ => Asks.cursorLoop fuel _ _ (by omega)
    obtain ⟨l, h1, h2⟩ := P.pushChunk_any (c.truncate len) cs p
    rw [h2]
    intro n hn
    have := h1 n hn
    rw [Chunk.truncate_data, List.length_take] at this
    omega

theorem Asks.splitAt (len : Nat) : Asks len (P.splitAt len : P β (Parser Cursor)) :=
  Asks.bind (Asks.bind (Asks.nil fun _ => rfl) fun _ => Asks.bind (Asks.cursorLoop _ _ _ (Nat.le_refl _)) fun _ => Asks.pure _) fun _ =>
    Asks.bind Asks.config fun _ => Asks.pure _

theorem Asks.toSliceLoop {B : Nat} : ∀ (fuel len : Nat) (w : List Byte), Asks B (P.toSliceLoop fuel len w : P β (List Byte))
  | 0, _, _ => Asks.nil fun _ => rfl
  | fuel + 1, len, w => by
    unfold P.toSliceLoop
    exact Asks.ite (fun _ => Asks.pure _) fun _ => Asks.bind (Asks.nil fun _ => rfl) fun c => Asks.bind (Asks.advance _) fun _ =>
      Asks.toSliceLoop fuel _ _

theorem Asks.array {B : Nat} (n : Nat) : Asks B (P.array n : P β (List Byte)) :=
  Asks.bind (Asks.nil fun _ => rfl) fun _ => Asks.ite (fun _ => Asks.bind (Asks.nil fun _ => rfl) fun _ => Asks.toSliceLoop _ _ _) fun _ =>
    Asks.bind (Asks.advance _) fun _ => Asks.pure _

theorem Asks.u16 {B : Nat} : Asks B (parseU16 : P β U16) := Asks.bind (Asks.array 2) fun _ => Asks.bind Asks.config fun _ => Asks.pure _
theorem Asks.u32 {B : Nat} : Asks B (parseU32 : P β U32) := Asks.bind (Asks.array 4) fun _ => Asks.bind Asks.config fun _ => Asks.pure _
theorem Asks.header {B : Nat} : Asks B (parseHeader : P β Header) :=
  Asks.bind Asks.u32 fun _ => Asks.bind Asks.u16 fun _ => Asks.bind Asks.u16 fun _ => Asks.pure _

/-! ## No panic -/

/-- The buffer's own functions do not panic: `chunk` never does, `advance` does not when called right after `chunk` with at most
as many bytes as that has shown. Nothing is said about what they return or do. -/
class Meek (β : Type) [ParseBuf β] : Prop where
  chunk : ∀ b : β, (ParseBuf.chunk b).1 ≠ .error .panic
  advance : ∀ (b : β) (c : Chunk) (n : Nat), (ParseBuf.chunk b).1 = .ok c → n ≤ c.data.length →
    ∃ b', ParseBuf.advance (ParseBuf.chunk b).2 n = some b'

/-- `m` does not panic in this state. -/
def CalmAt (p : Parser β) (m : P β α) : Prop := (m p).res ≠ .error .panic ∧ (m p).st.config = p.config

/-- `m` never panics. -/
def Calm (m : P β α) : Prop := ∀ p : Parser β, p.config.Wf → CalmAt p m

/-- The buffer lets itself be advanced by up to `n` bytes. -/
def Shown (p : Parser β) (n : Nat) : Prop := ∀ k, k ≤ n → ∃ q, P.advance k p = ⟨.ok (), q, []⟩ ∧ q.config = p.config

namespace Calm
omit [ParseBuf β]

theorem pure (a : α) : Calm (Pure.pure a : P β α) := fun _ _ => ⟨nofun, rfl⟩
theorem fail (e : ParseError) : Calm (P.fail e : P β α) := fun _ _ => ⟨nofun, rfl⟩
theorem diverge : Calm (P.fault .diverge : P β α) := fun _ _ => ⟨nofun, rfl⟩
theorem config : Calm (P.config : P β ParseConfig) := fun _ _ => ⟨nofun, rfl⟩
theorem offset : Calm (P.offset : P β Nat) := fun _ _ => ⟨nofun, rfl⟩
theorem alloc (n : Nat) : Calm (P.alloc n : P β Unit) := fun _ _ => ⟨nofun, rfl⟩

theorem bindQ {Q : α → Prop} {m : P β α} {k : α → P β α'} (h : Calm m) (hq : Post Q m) (hk : ∀ a, Q a → Calm (k a)) : Calm (m >>= k) := by
  intro p hp
  obtain ⟨h1, h2⟩ := h p hp
  have h3 := hq p
  unfold CalmAt
  rcases hm : m p with ⟨e | a, q, l⟩ <;> rw [hm] at h1 h2 h3
  · rw [P.bind_err hm]; exact ⟨fun he => h1 (by cases he; rfl), h2⟩
  · rw [P.bind_ok hm]
    obtain ⟨h4, h5⟩ := hk a (h3 a rfl) q (by rw [h2]; exact hp)
    exact ⟨h4, by rw [h5, h2]⟩
theorem bind {m : P β α} {k : α → P β α'} (h : Calm m) (hk : ∀ a, Calm (k a)) : Calm (m >>= k) :=
  bindQ h (Post.true m) fun a _ => hk a
theorem ite {c : Prop} [Decidable c] {a b : P β α} (h : Calm a) (h' : Calm b) : Calm (if c then a else b) := by
  split
  · exact h
  · exact h'
end Calm

theorem Calm.hint : Calm (P.hint : P β (Option Nat)) := fun _ _ => ⟨nofun, rfl⟩
theorem Calm.fuel : Calm (P.fuel : P β Nat) := fun _ _ => ⟨nofun, rfl⟩

section
variable [Meek β]

theorem P.chunk_any (p : Parser β) : (∃ e q, P.chunk p = ⟨.error e, q, []⟩ ∧ e ≠ .panic ∧ q.config = p.config) ∨
    ∃ c q, P.chunk p = ⟨.ok c, q, []⟩ ∧ q.config = p.config ∧ Shown q c.data.length := by
  rcases hc : (ParseBuf.chunk p.data.buf).1 with e | c
  · refine .inl ⟨e, { p with data := (ParseBuf.chunk p.data).2 }, ?_, fun he => Meek.chunk p.data.buf (by rw [hc, he]), rfl⟩
    show (⟨(ParseBuf.chunk p.data.buf).1, _, []⟩ : Out β Chunk) = _
    rw [hc]
  · refine .inr ⟨c, { p with data := (ParseBuf.chunk p.data).2 }, ?_, rfl, fun k hk => ?_⟩
    · show (⟨(ParseBuf.chunk p.data.buf).1, _, []⟩ : Out β Chunk) = _
      rw [hc]
    · obtain ⟨b', hb⟩ := Meek.advance p.data.buf c k hc hk
      refine ⟨⟨p.config, ⟨b', p.data.offset + k⟩⟩, ?_, rfl⟩
      have : ParseBuf.advance (ParseBuf.chunk p.data).2 k = some ⟨b', p.data.offset + k⟩ := by
        show (ParseBuf.advance (ParseBuf.chunk p.data.buf).2 k).map _ = _
        rw [hb]; rfl
      unfold P.advance
      dsimp only
      rw [this]

omit [Meek β] in
theorem CalmAt.advance {p : Parser β} (hw : p.config.Wf) {n k : Nat} (h : Shown p n) (hk : k ≤ n) {m : Unit → P β α} (hm : Calm (m ())) :
    CalmAt p (P.advance k >>= m) := by
  obtain ⟨q, h1, h2⟩ := h k hk
  unfold CalmAt
  rw [P.bind_nil h1, ← h2]
  exact hm q (by rw [h2]; exact hw)

theorem Calm.chunk {k : Chunk → P β α} (h : ∀ c p, p.config.Wf → Shown p c.data.length → CalmAt p (k c)) : Calm (P.chunk >>= k) := by
  intro p hp
  unfold CalmAt
  rcases P.chunk_any p with ⟨e, q, h1, h2, h3⟩ | ⟨c, q, h1, h2, h3⟩
  · rw [P.bind_err h1]
    exact ⟨fun he => h2 (by cases he; rfl), h3⟩
  · rw [P.bind_nil h1, ← h2]
    exact h c q (by rw [h2]; exact hp) h3

theorem Calm.cursorLoop : ∀ (fuel len : Nat) (cs : List Chunk), Calm (P.cursorLoop fuel len cs : P β (List Chunk))
  | 0, _, _ => Calm.diverge
  | fuel + 1, len, cs => by
    unfold P.cursorLoop
    refine Calm.ite (Calm.pure _) (Calm.chunk fun c p hp hs => ?_)
    obtain ⟨l, _, h2⟩ := P.pushChunk_any (c.truncate len) cs p
    obtain ⟨h3, h4⟩ := CalmAt.advance (k := (c.truncate len).data.length)
      (m := fun _ => P.cursorLoop fuel (len - (c.truncate len).data.length) (if (c.truncate len).data.length > 0 then c.truncate len :: cs else cs))
      hp hs (by rw [Chunk.truncate_data, List.length_take]; omega) (Calm.cursorLoop fuel _ _)
    unfold CalmAt
    rw [P.bind_ok h2]
    exact ⟨h3, h4⟩

theorem Calm.splitAt (len : Nat) : Calm (P.splitAt len : P β (Parser Cursor)) :=
  Calm.bind (Calm.bind Calm.fuel fun _ => Calm.bind (Calm.cursorLoop _ _ _) fun _ => Calm.pure _) fun _ =>
    Calm.bind Calm.config fun _ => Calm.pure _

theorem Calm.toSliceLoop : ∀ (fuel len : Nat) (w : List Byte), Calm (P.toSliceLoop fuel len w : P β (List Byte))
  | 0, _, _ => Calm.diverge
  | fuel + 1, len, w => by
    unfold P.toSliceLoop
    exact Calm.ite (Calm.pure _) (Calm.chunk fun c p hp hs => CalmAt.advance hp hs (Nat.min_le_left _ _) (Calm.toSliceLoop fuel _ _))

theorem Calm.toSlice (len : Nat) : Calm (P.toSlice len : P β (List Byte)) := Calm.bind Calm.fuel fun _ => Calm.toSliceLoop _ _ _

theorem Calm.bytesSlowLoop : ∀ (fuel len : Nat) (w : List Byte), Calm (P.bytesSlowLoop fuel len w : P β (List Byte))
  | 0, _, _ => Calm.diverge
  | fuel + 1, len, w => by
    unfold P.bytesSlowLoop
    exact Calm.ite (Calm.pure _) (Calm.chunk fun c p hp hs =>
      CalmAt.advance hp hs (by rw [Chunk.truncate_data, List.length_take]; omega) (Calm.bytesSlowLoop fuel _ _))

omit [Meek β] in
theorem Calm.safeCapacityBound (size : Nat) : Calm (P.safeCapacityBound size : P β Nat) :=
  Calm.ite (Calm.pure _) (Calm.bind Calm.hint fun _ => Calm.pure _)

theorem Calm.bytesSlow (len : Nat) : Calm (P.bytesSlow len : P β (List Byte)) :=
  Calm.bind (Calm.safeCapacityBound 1) fun _ => Calm.bind (Calm.alloc _) fun _ => Calm.bind Calm.fuel fun _ => Calm.bytesSlowLoop _ _ _

theorem Calm.bytesDirect (len : Nat) : Calm (P.bytesDirect len : P β (Option (Nat × List Byte))) := by
  refine Calm.chunk fun c p hp hs => ?_
  split
  · exact Calm.pure _ p hp
  · by_cases h : c.data.length < len
    · rw [if_pos h]; exact Calm.pure _ p hp
    · rw [if_neg h]; exact CalmAt.advance hp hs (by omega) (Calm.pure _)

theorem Calm.bytes (len : Nat) : Calm (P.bytes len : P β (Cow Byte)) := by
  refine Calm.bind (Calm.bytesDirect len) fun o => ?_
  cases o with
  | some x => exact Calm.pure _
  | none =>
    exact Calm.bind Calm.hint fun _ => Calm.ite (Calm.bind (Calm.alloc _) fun _ => Calm.bind (Calm.toSlice _) fun _ => Calm.pure _)
      (Calm.bind (Calm.bytesSlow _) fun _ => Calm.pure _)

theorem Calm.ignoredLoop : ∀ (fuel len : Nat), Calm (P.ignoredLoop fuel len : P β Unit)
  | 0, _ => Calm.diverge
  | fuel + 1, len => by
    unfold P.ignoredLoop
    exact Calm.ite (Calm.pure _) (Calm.chunk fun c p hp hs => CalmAt.advance hp hs (Nat.min_le_left _ _) (Calm.ignoredLoop fuel _))

theorem Calm.array (n : Nat) : Calm (P.array n : P β (List Byte)) := by
  refine Calm.chunk fun c p hp hs => ?_
  by_cases h : c.data.length < n
  · rw [if_pos h]; exact Calm.toSlice n p hp
  · rw [if_neg h]; exact CalmAt.advance hp hs (by omega) (Calm.pure _)

theorem Calm.restLoop : ∀ (fuel : Nat) (b : Cow Byte), Calm (P.restLoop fuel b : P β (Cow Byte))
  | 0, _ => Calm.diverge
  | fuel + 1, b => by
    intro p hp
    unfold P.restLoop
    unfold CalmAt
    rcases P.chunk_any p with ⟨e, q, h1, h2, h3⟩ | ⟨c, q, h1, h2, h3⟩
    · cases e with
      | err e =>
        rw [P.bind_nil (P.chunkResult_err h1), ← h3]
        exact Calm.ite (Calm.pure _) (Calm.fail _) q (by rw [h3]; exact hp)
      | panic => exact absurd rfl h2
      | diverge =>
        have : P.chunkResult p = ⟨.error .diverge, q, []⟩ := by
          unfold P.chunk at h1
          unfold P.chunkResult
          simp only [Out.mk.injEq] at h1
          rw [h1.1]
          simp [h1.2.1]
        rw [P.bind_err this]
        exact ⟨nofun, h3⟩
    · rw [P.bind_nil (P.chunkResult_ok h1), ← h2]
      exact CalmAt.advance (by rw [h2]; exact hp) h3 (Nat.le_refl _) (Calm.restLoop fuel _)

theorem Calm.rest : Calm (P.rest : P β (Cow Byte)) := by
  refine Calm.chunk fun c p hp hs => ?_
  obtain ⟨l, _, h2⟩ := P.toCow_run c p
  have hl : c.toCow.data.length = c.data.length := by
    unfold Chunk.toCow; split <;> rfl
  obtain ⟨h3, h4⟩ := CalmAt.advance (k := c.toCow.data.length) (m := fun _ => P.fuel >>= fun n => P.restLoop n c.toCow) hp hs (by omega)
    (Calm.bind Calm.fuel fun _ => Calm.restLoop _ _)
  unfold CalmAt
  rw [P.bind_ok h2]
  exact ⟨h3, h4⟩

omit [ParseBuf β] [Meek β] in
theorem Calm.repeatedLoop {item : P β T} (h : Calm item) : ∀ n, Calm (P.repeatedLoop item n)
  | 0 => Calm.pure _
  | n + 1 => Calm.bind h fun _ => Calm.bind (Calm.repeatedLoop h n) fun _ => Calm.pure _

omit [Meek β] in
theorem Calm.repeated (size : Nat) {item : P β T} (h : Calm item) (n : Nat) : Calm (P.repeated size item n) :=
  Calm.bind (Calm.safeCapacityBound _) fun _ => Calm.bind (Calm.alloc _) fun _ => Calm.repeatedLoop h n

theorem Calm.direct (e : Elem T) (n : Nat) : Calm (P.sliceDirect e n : P β (Option (List T))) := by
  refine Calm.bind Calm.config fun c => Calm.ite (Calm.pure _) (Calm.ite (Calm.fail _) (Calm.bind (Calm.bytesDirect _) fun x => ?_))
  match x with
  | none => exact Calm.pure _
  | some (addr, bs) => exact Calm.ite (Calm.pure _) (Calm.pure _)

theorem Calm.slice (e : Elem T) {item : P β T} (h : Calm item) (n : Nat) : Calm (P.slice e item n) := by
  refine Calm.bind (Calm.direct e n) fun x => ?_
  match x with
  | some l => exact Calm.pure _
  | none => exact Calm.bind (Calm.repeated e.size h n) fun _ => Calm.pure _

theorem Calm.u16 : Calm (parseU16 : P β U16) := Calm.bind (Calm.array 2) fun _ => Calm.bind Calm.config fun _ => Calm.pure _
theorem Calm.u64 : Calm (parseU64 : P β U64) := Calm.bind (Calm.array 8) fun _ => Calm.bind Calm.config fun _ => Calm.pure _

omit [ParseBuf β] [Meek β] in
theorem Calm.splitIn {c : Cow T} {n : Nat} (h : n ≤ c.data.length) : Calm (match c.splitAt n with | some r => Pure.pure r | none => P.fault .panic : P β _) := by
  cases c with
  | borrowed d =>
    simp only [Cow.data] at h
    simp only [Cow.splitAt, if_pos h]; exact Calm.pure _
  | owned d =>
    simp only [Cow.data] at h
    simp only [Cow.splitAt]
    by_cases h0 : n = 0
    · simp only [if_pos h0]; exact Calm.pure _
    · by_cases h1 : n = d.length
      · simp only [if_neg h0, if_pos h1]; exact Calm.pure _
      · simp only [if_neg h0, if_neg h1, if_pos h]; exact Calm.pure _

theorem Calm.textPoke : Calm (parseTextPoke : P β (TextPoke Cow)) := by
  refine Calm.bind Calm.u64 fun _ => Calm.bind Calm.u16 fun a => Calm.bind Calm.u16 fun b => ?_
  refine Calm.bindQ (Calm.bytes _) (Post.bytes _) fun c hc => Calm.bind (Calm.splitIn ?_) fun _ => Calm.pure _
  rw [hc]
  have := roundUpMod_ge (a.toNat + b.toNat) 4 8
  omega

theorem Calm.kept : Kept (M := P β) (C := Cow) Calm where
  pure := Calm.pure
  bind := Calm.bind
  fail := Calm.fail
  config := Calm.config
  array := Calm.array
  bytes := Calm.bytes
  rest := Calm.rest
  restTrimNul := Calm.bind Calm.rest fun _ => Calm.pure _
  padded h := by
    show Calm (P.padded 8 _)
    unfold P.padded
    rw [if_neg (by decide)]
    exact Calm.bind Calm.offset fun _ => Calm.bind h fun _ => Calm.bind Calm.offset fun _ => Calm.ite (Calm.pure _)
      (Calm.bind (Calm.bind Calm.fuel fun _ => Calm.ignoredLoop _ _) fun _ => Calm.pure _)
  slice e n h := Calm.slice e h n
  textPoke := Calm.textPoke

omit [ParseBuf β] [Meek β] in
/-- Running something on a copy that is alive. -/
theorem Calm.onChild {c : Parser Cursor} (hc : Alive c) {m : P Cursor α} (hm : Fine m) : Calm (P.onChild c m : P β _) := by
  intro p _
  obtain ⟨h, _⟩ := hm c hc
  unfold CalmAt P.onChild
  rcases h with ⟨a, h⟩ | ⟨e, h⟩
  · dsimp only; rw [h]; exact ⟨nofun, rfl⟩
  · dsimp only; rw [h]; exact ⟨nofun, rfl⟩

theorem Calm.attr : Calm (P.parseAttr : P β Attr) := by
  have k : Kept (M := P β) (C := Cow) Calm := Calm.kept
  refine Calm.bind k.u32 fun t => Calm.bind k.u32 fun n => Calm.ite (Calm.fail _) ?_
  intro p hp
  obtain ⟨h1, h2⟩ := Calm.splitAt (β := β) (n.toNat - 4) p hp
  unfold CalmAt
  rcases hs : P.splitAt (n.toNat - 4) p with ⟨e | c, q, l⟩ <;> rw [hs] at h1 h2
  · rw [P.bind_err hs]; exact ⟨fun he => h1 (by cases he; rfl), h2⟩
  · rw [P.bind_ok hs]
    have hc := P.splitAt_any (by rw [hs] : (P.splitAt (n.toNat - 4) p).res = .ok c)
    have hl : n.toNat - 4 < usizeLimit := by have := n.isLt; unfold usizeLimit; omega
    obtain ⟨h3, h4⟩ := Calm.bind (Calm.onChild (β := β) ⟨_, hc.rep hl hp⟩ ((Fine.kept (β := Cursor)).attrBody t n)) (fun r => Calm.pure r.1) q
      (by rw [h2]; exact hp)
    exact ⟨h3, by rw [h4, h2]⟩

omit [ParseBuf β] [Meek β] in
theorem AsCopy.alive {p : Parser β} {h : Header} {c : Parser Cursor} (hc : CopyOf (h.size.toNat - 8) p c) (hw : p.config.Wf) : Alive c :=
  ⟨_, hc.rep (by have := h.size_lt; unfold usizeLimit; omega) hw⟩

/-- A record from a buffer that may do anything but panic. -/
theorem Calm.recordWithHeader (v : Visitor Cow O) (h : Header) (hv : v.Total) : Calm (P.recordWithHeader v h : P β O) := by
  intro p hp
  refine ⟨?_, (Inv.recordWithHeader (Stable.config p.config) v h p rfl).1⟩
  rcases (P.record_copy p v h).cases with ⟨_, h1, _⟩ | ⟨_, e, h1, h2, _⟩ | ⟨_, c, _, h2, h3, _⟩
  · rw [h1]; nofun
  · rw [h2]; exact fun he => (Calm.splitAt _ p hp).1 (by rw [h1]; cases he; rfl)
  · rw [h3]
    obtain ⟨f, hf⟩ := AsCopy.alive h2 hp
    rcases c01_record_with_header hf v hv h with ⟨a, ha⟩ | ⟨e, he⟩
    · rw [ha]; nofun
    · rw [he]; nofun

theorem Calm.record (v : Visitor Cow O) (hv : v.Total) : Calm (P.record v : P β O) :=
  Calm.bind Calm.kept.header fun h => Calm.recordWithHeader v h hv

theorem Calm.parseRecord : Calm (P.parseRecord : P β (Record Cow)) := by
  refine Calm.bind Calm.kept.header fun h p hp => ?_
  refine ⟨?_, (Inv.recordWithHeader (Stable.config p.config) (recordVisitor Cow) h p rfl).1⟩
  rcases (P.record_copy p (recordVisitor Cow) h).cases with ⟨_, h1, _⟩ | ⟨_, e, h1, h2, _⟩ | ⟨_, c, _, h2, h3, _⟩
  · rw [h1]; nofun
  · rw [h2]; exact fun he => (Calm.splitAt _ p hp).1 (by rw [h1]; cases he; rfl)
  · rw [h3]
    obtain ⟨f, hf⟩ := AsCopy.alive h2 hp
    rcases c01_parse_record_with_header hf h with ⟨a, ha⟩ | ⟨e, he⟩
    · have ha : (P.recordWithHeader (recordVisitor Cow) h c).res = .ok a := ha
      rw [ha]; nofun
    · have he : (P.recordWithHeader (recordVisitor Cow) h c).res = .error (.err e) := he
      rw [he]; nofun

/-- Metadata: no panic, and the parser it returns can be used. -/
theorem Calm.metadataThen {body : P Cursor T} (hb : Fine body) {k : Metadata → Except ParseError T → P β α}
    (hk : ∀ md r, Calm (k md r)) (h : Header) :
    Calm (P.metadataWithHeader h >>= fun x => P.attemptOn x.1 body >>= fun r => k x.2 r) := by
  intro p hp
  have hi := (Inv.metadataWithHeader (Stable.config p.config) h p rfl).1
  have hc : (∃ e, (P.metadataWithHeader h p).res = .error e ∧ e ≠ .panic) ∨ ∃ x, (P.metadataWithHeader h p).res = .ok x ∧ Alive x.1 := by
    rcases (P.metadata_copy p h).cases with ⟨_, h1, _⟩ | ⟨_, e, h1, h2, _⟩ | ⟨_, c, _, h2, h3, _⟩
    · exact .inl ⟨_, h1, nofun⟩
    · exact .inl ⟨e, h2, fun he => (Calm.splitAt _ p hp).1 (by rw [h1, he])⟩
    · rw [h3]
      rcases (FineSub.metadataWithHeader h c (AsCopy.alive h2 hp)).2 with ⟨x, h4, h5⟩ | ⟨e, h4⟩
      · exact .inr ⟨x, h4, h5⟩
      · exact .inl ⟨_, h4, nofun⟩
  unfold CalmAt
  rcases hc with ⟨e, h1, h2⟩ | ⟨x, h1, h2⟩
  · rw [P.bind_err (P.run_eq _ h1)]
    exact ⟨fun he => h2 (by cases he; rfl), hi⟩
  · rw [P.bind_ok (P.run_eq _ h1)]
    have ha : Calm (P.attemptOn x.1 body : P β _) := by
      intro q _
      obtain ⟨h4, _⟩ := hb x.1 h2
      unfold CalmAt P.attemptOn
      rcases h4 with ⟨a, h4⟩ | ⟨e, h4⟩
      · rw [h4]; exact ⟨nofun, rfl⟩
      · rw [h4]; exact ⟨nofun, rfl⟩
    obtain ⟨h3, h4⟩ := Calm.bind ha (hk x.2) _ (by rw [hi]; exact hp)
    exact ⟨h3, by rw [h4, hi]⟩

omit [ParseBuf β] [Meek β] in
theorem Calm.attempt {m : P β α} (h : Calm m) : Calm (P.attempt m) := by
  intro p hp
  obtain ⟨h1, h2⟩ := h p hp
  unfold CalmAt P.attempt
  rcases hm : (m p).res with e | a
  · cases e with
    | err e => exact ⟨nofun, h2⟩
    | panic => exact absurd hm h1
    | diverge => exact ⟨nofun, h2⟩
  · exact ⟨nofun, h2⟩

theorem Calm.call (c : Call T) : Calm (c.run β) := by
  have k : Kept (M := P β) (C := Cow) Calm := Calm.kept
  have hv : pairVisitor.Total := fun r md => .inl (by cases r <;> exact ⟨_, rfl⟩)
  cases c with
  | array n => exact k.array n
  | direct n => exact Calm.direct _ n
  | entries n => exact Calm.bind (k.slice _ n k.namespaceEntry) fun _ => Calm.pure _
  | branches n => exact Calm.bind (k.slice _ n k.branchEntry) fun _ => Calm.pure _
  | header => exact k.header
  | attr => exact Calm.attr
  | entry => exact k.namespaceEntry
  | branch => exact k.branchEntry
  | mmapDetail => exact k.mmapDetail
  | sampleId => exact k.sampleId
  | readValue => exact k.readValue
  | readGroup => exact Calm.bind k.readGroup fun _ => Calm.pure _
  | body ty => exact Calm.bind (k.body ty) fun _ => Calm.pure _
  | visit => exact Calm.bind (Calm.record _ hv) fun _ => Calm.pure _
  | visitWith h => exact Calm.bind (Calm.recordWithHeader _ h hv) fun _ => Calm.pure _

/-- No program over the public methods panics, on any buffer that does not itself panic. -/
theorem Calm.prog (prog : Prog α) : Calm (prog.run β) := by
  have k : Kept (M := P β) (C := Cow) Calm := Calm.kept
  induction prog with
  | done a => exact Calm.pure a
  | fail e => exact Calm.fail e
  | config _ ih => exact Calm.bind Calm.config fun c => ih c
  | u8 _ ih => exact Calm.bind k.u8 fun c => ih c
  | u16 _ ih => exact Calm.bind k.u16 fun c => ih c
  | u32 _ ih => exact Calm.bind k.u32 fun c => ih c
  | u64 _ ih => exact Calm.bind k.u64 fun c => ih c
  | bytes n _ ih => exact Calm.bind (Calm.bytes n) fun c => ih c.data
  | rest _ ih => exact Calm.bind Calm.rest fun c => ih c.data
  | restTrimNul _ ih => exact Calm.bind k.restTrimNul fun c => ih c.data
  | words n _ ih => exact Calm.bind (Calm.slice _ k.u64 n) fun c => ih c.data
  | repeated size item n _ ihi ih => exact Calm.bind (Calm.repeated size ihi n) fun l => ih l
  | metadata body l ihb ih =>
    show Calm ((parseHeader >>= P.metadataWithHeader) >>= fun x => P.attemptOn x.1 (body.run Cursor) >>= fun r => (l x.2 r).run β)
    rw [P.bind_bind]
    exact Calm.bind k.header fun h => Calm.metadataThen (Fine.prog body Cursor) (fun md r => ih md r) h
  | metadataWith h body _ ihb ih => exact Calm.metadataThen (Fine.prog body Cursor) (fun md r => ih md r) h
  | call c _ ih => exact Calm.bind (Calm.call c) fun x => ih x
  | record _ ih => exact Calm.bind Calm.parseRecord fun r => ih r.view
  | attempt m _ ihm ih => exact Calm.bind (Calm.attempt ihm) fun r => ih r

end
end Perf
