import Verif.Proof.Sim
import Verif.Props.Visit
/-!
# C03: the contiguous fast path is unobservable
-/
namespace Perf
variable {β : Type} [ParseBuf β] {O : Type}

/-- `parse_record_with_header` without its fast path: the body is always read through the cursor. -/
def P.recordWithHeaderGeneral (v : Visitor Cow O) (header : Header) : P β O := do
  let (p, md) ← P.metadataWithHeader header
  P.recordImpl p v md

/-- What holds of the pieces collected by `ParseBufCursor::new`, whatever the buffer does. -/
theorem P.cursorLoop_post : ∀ (n len : Nat) (acc : List Chunk), (∀ c ∈ acc, c.data ≠ []) →
    Post (fun out => (∀ c ∈ out, c.data ≠ []) ∧ chunkBytes out = chunkBytes acc + len) (P.cursorLoop n len acc : P β (List Chunk))
  | 0, _, _, _ => fun _ _ h => by cases h
  | n + 1, len, acc, hacc => by
    unfold P.cursorLoop
    refine Post.ite (fun h0 => Post.pure ⟨hacc, by omega⟩) fun h0 => ?_
    refine Post.skip fun c => ?_
    dsimp only
    have hlen : (c.truncate len).data.length ≤ len := by rw [Sim.truncate_data, List.length_take]; omega
    generalize c.truncate len = c at *
    have hpush : Post (fun out => (∀ c ∈ out, c.data ≠ []) ∧ chunkBytes out = chunkBytes acc + c.data.length)
        (P.pushChunk c acc : P β (List Chunk)) := by
      unfold P.pushChunk
      refine Post.ite (fun h => Post.skip fun _ => Post.pure ⟨?_, ?_⟩) fun h => Post.pure ⟨hacc, by omega⟩
      · intro x hx
        rcases List.mem_cons.mp hx with rfl | hx
        · exact List.length_pos_iff.mp h
        · exact hacc x hx
      · simp [chunkBytes, Nat.add_comm]
    refine Post.bind hpush fun out hout => Post.skip fun _ => ?_
    refine Post.mono (P.cursorLoop_post n _ out hout.1) fun r hr => ⟨hr.1, ?_⟩
    rw [hr.2, hout.2]; omega

/-- A cursor as `split_at` makes it. -/
structure FreshCursor (len : Nat) (c : Parser Cursor) : Prop where
  offset : c.data.buf.offset = 0
  tracked : c.data.offset = 0
  hint : c.data.buf.len = len
  bytes : chunkBytes c.data.buf.chunks = len
  nonempty : ∀ x ∈ c.data.buf.chunks, x.data ≠ []

theorem chunkBytes_concat (xs : List Chunk) (c : Chunk) : chunkBytes (xs ++ [c]) = chunkBytes xs + c.data.length := by
  induction xs with
  | nil => simp [chunkBytes]
  | cons x xs ih => simp only [List.cons_append, chunkBytes, ih]; omega

theorem chunkBytes_reverse (cs : List Chunk) : chunkBytes cs.reverse = chunkBytes cs := by
  induction cs with
  | nil => rfl
  | cons c cs ih => rw [List.reverse_cons, chunkBytes_concat, ih]; simp only [chunkBytes]; omega

theorem P.splitAt_post (len : Nat) : Post (FreshCursor len) (P.splitAt len : P β (Parser Cursor)) := by
  refine Post.bind (Q := fun c => c.offset = 0 ∧ c.len = len ∧ chunkBytes c.chunks = len ∧ ∀ x ∈ c.chunks, x.data ≠ []) ?_ fun c hc =>
    Post.skip fun cfg => Post.pure ⟨hc.1, rfl, hc.2.1, hc.2.2.1, hc.2.2.2⟩
  refine Post.skip fun n => Post.bind (P.cursorLoop_post n len [] (by simp)) fun out hout => Post.pure ⟨rfl, rfl, ?_, ?_⟩
  · rw [chunkBytes_reverse, hout.2]; simp [chunkBytes]
  · intro x hx; exact hout.1 x (List.mem_reverse.mp hx)

omit [ParseBuf β] in
theorem P.onChild_post {γ α : Type} {Q : α → Prop} {m : P γ α} (h : Post Q m) (q : Parser γ) :
    Post (fun r => Q r.1) (P.onChild q m : P β (α × Parser γ)) := by
  intro p a ha
  unfold P.onChild at ha
  rcases hm : (m q).res with e | x
  · simp only [hm] at ha; cases ha
  · simp only [hm] at ha; cases ha; exact h q x hm

theorem P.metadataWithHeader_post (h : Header) :
    Post (fun r => ∃ len, FreshCursor len r.1 ∧ len < usizeLimit) (P.metadataWithHeader h : P β (Parser Cursor × Metadata)) := by
  have hlim : h.size.toNat < usizeLimit := by have := h.size.isLt; unfold usizeLimit; omega
  unfold P.metadataWithHeader
  refine Post.ite (fun _ => Post.fail _) fun _ => ?_
  refine Post.bind (P.splitAt_post _) fun rp hrp => ?_
  refine Post.ite (fun _ => Post.pure ⟨_, hrp, by omega⟩) fun _ => Post.ite (fun _ => Post.fail _) fun _ => ?_
  refine Post.bind (P.onChild_post (P.splitAt_post _) rp) fun r hr => Post.skip fun _ => Post.pure ⟨_, hr, by omega⟩

omit [ParseBuf β] in
/-- The two ways agree on any cursor made by `split_at`. -/
theorem P.recordImpl_agree {c : Parser Cursor} {len : Nat} (hc : FreshCursor len c) (hl : len < usizeLimit)
    (v : Visitor Cow O) (md : Metadata) (st : Parser β) :
    ((match c.data.buf.asSlice with
      | some data => P.recordImpl (Parser.new data c.config) v md
      | none => P.recordImpl c v md : P β O) st).res = (P.recordImpl c v md st).res := by
  rcases hs : c.data.buf.asSlice with - | s
  · rfl
  · have hd : s.data.length = len ∧ s.data ≠ [] := by
      have hs' := hs
      unfold Cursor.asSlice at hs'
      split at hs'
      · rename_i a d hcs
        cases hs'
        have h1 := hc.bytes
        rw [hcs] at h1
        refine ⟨by simpa [chunkBytes] using h1, hc.nonempty ⟨.external a, d⟩ (by rw [hcs]; simp)⟩
      · cases hs'
    exact P.recordImpl_fast hs hc.offset hc.tracked (by rw [hd.1, hc.hint]; exact Nat.le_refl _) (by omega) hd.2 v md st

omit [ParseBuf β] in
theorem P.recordImpl_st {γ : Type} [ParseBuf γ] (c : Parser γ) (v : Visitor Cow O) (md : Metadata) (st : Parser β) :
    (P.recordImpl c v md st).st = st := by
  unfold P.recordImpl
  rcases ho : (P.onChild (β := β) (Parser.new c.data (c.config.withMisc md.misc)) (P.dispatch v md) st) with ⟨r, s, l⟩
  have hst : s = st := by
    have : (P.onChild (β := β) (Parser.new c.data (c.config.withMisc md.misc)) (P.dispatch v md) st).st = st := by
      unfold P.onChild
      rcases hm : (P.dispatch v md (Parser.new c.data (c.config.withMisc md.misc))).res with e | x <;> simp only [hm]
    rw [ho] at this; exact this
  cases r with
  | error e => rw [P.bind_err ho]; exact hst
  | ok a => rw [P.bind_ok ho]; exact hst

/-- C03. For every parser over every buffer (however it behaves), every header and every visitor: the value or error
of `parse_record_with_header` is the one the cursor parser gives, and the parser is left in the same state. -/
theorem c03_fast_path (v : Visitor Cow O) (h : Header) (p : Parser β) :
    (P.recordWithHeader v h p).res = (P.recordWithHeaderGeneral v h p).res ∧
    (P.recordWithHeader v h p).st = (P.recordWithHeaderGeneral v h p).st := by
  unfold P.recordWithHeader P.recordWithHeaderGeneral
  rcases hm : (P.metadataWithHeader h p).res with e | ⟨c, md⟩
  · rw [P.bind_err (P.run_eq _ hm), P.bind_err (P.run_eq _ hm)]
    exact ⟨rfl, rfl⟩
  · obtain ⟨len, hc, hl⟩ := P.metadataWithHeader_post h p _ hm
    rw [P.bind_ok (P.run_eq _ hm), P.bind_ok (P.run_eq _ hm)]
    refine ⟨P.recordImpl_agree hc hl v md _, ?_⟩
    show ((match c.data.buf.asSlice with
      | some data => P.recordImpl (Parser.new data c.config) v md
      | none => P.recordImpl c v md : P β O) _).st = (P.recordImpl c v md _).st
    rw [P.recordImpl_st]
    rcases c.data.buf.asSlice with - | s <;> exact P.recordImpl_st _ _ _ _

/-- The fast path is taken exactly when the body is one borrowed piece, e.g. for every record with a body read from a
slice whose configuration has no trailer. -/
theorem c03_taken : (match (P.metadataWithHeader ⟨4, 0, 12⟩ (Parser.new (⟨8, [1, 2, 3, 4, 5]⟩ : Slice) demoCfg)).res with
    | .ok (c, _) => c.data.buf.asSlice == some ⟨8, [1, 2, 3, 4]⟩
    | .error _ => false) = true := by decide +kernel

end Perf
