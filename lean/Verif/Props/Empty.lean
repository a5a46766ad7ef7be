import Verif.Proof.Patchy
import Verif.Props.Chunking
/-!
# C55: empty chunks
-/
namespace Perf
variable {β γ : Type} [ParseBuf β] [ParseBuf γ] [Lawful γ] {O : Type} {Rep : β → Stream → Prop}

/-- **C55** For every buffer that stands for a stream of bytes, may return empty chunks at any time and makes progress
eventually: splitting off `len` bytes terminates, with a sub-parser over exactly the next `len` bytes (none of its chunks
empty) and the outer parser after them, or with the error at the end of the stream if there are fewer. -/
theorem c55_split (P' : Patchy Rep) {p : Parser β} {f : Flat} (h : RepQ Rep p f) {len : Nat} (hlim : len < usizeLimit) :
    (len ≤ f.s.bytes.length ∧ ∃ c, (P.splitAt len p).res = .ok c ∧
      (c.data.buf.chunks.map (·.data)).flatten = f.s.bytes.take len ∧ (∀ x ∈ c.data.buf.chunks, x.data ≠ []) ∧
      c.data.buf.len = len ∧ c.config = p.config ∧ RepP c ⟨⟨f.s.bytes.take len, f.s.al, .eof⟩, 0, f.cfg⟩ ∧
      RepQ Rep (P.splitAt len p).st (f.adv len)) ∨
    (f.s.bytes.length < len ∧ (P.splitAt len p).res = .error (.err f.s.fin)) := by
  have hs := (P'.splitAt h hlim).1
  rcases Nat.lt_or_ge f.s.bytes.length len with hlt | hle
  · rw [if_neg (by omega)] at hs
    exact .inr ⟨hlt, hs⟩
  · rw [if_pos hle] at hs
    obtain ⟨c, h1, h2, h3⟩ := hs
    refine .inl ⟨hle, c, h1, ?_, h2.pieces.nonempty, h2.length, ?_, h2.rep, h3⟩
    · have hd : ∀ cs : List Chunk, (cs.map (·.data)).flatten = chunksData cs := by
        intro cs
        induction cs with
        | nil => rfl
        | cons c cs ih => simp [chunksData, ih]
      rw [hd, h2.pieces.data]
    · rw [h2.rep.cfg, h.cfg]

/-- **C55** for whole records: `parse_record` on a buffer with empty chunks does what it does on any lawful buffer with the
same bytes, and leaves the parser after the record. (`Settled`: see C02.) -/
theorem c55_record (P' : Patchy Rep) {p : Parser β} {q : Parser γ} {f g : Flat} (hp : RepQ Rep p f) (hq : RepP q g)
    (h : SameBytes f g) (hf : Settled f) (hg : Settled g) (v : Visitor Cow O) :
    SameOutcome v (P.record v p).res (P.record v q).res ∧
    (8 ≤ f.s.bytes.length → 8 ≤ (headerAt f).size.toNat → (headerAt f).size.toNat ≤ f.s.bytes.length →
      RepQ Rep (P.record v p).st (f.adv (headerAt f).size.toNat)) := by
  have hl := congrArg List.length h.bytes
  rcases P'.record hp v with ⟨a1, a2⟩ | ⟨a1, a2, _, x⟩
  · rcases P.record_run hq v with ⟨b1, b2, _⟩ | ⟨b1, q', b2, _, b3⟩
    · exact ⟨.inl ⟨_, a2, by rw [b2, h.fin]⟩, fun h8 => by omega⟩
    · omega
  · refine ⟨?_, fun _ h8 hle => ?_⟩
    · rcases P.record_run hq v with ⟨b1, b2, _⟩ | ⟨b1, q', b2, _, b3⟩
      · omega
      · rw [b3, ← headerAt_same h]
        have h' : SameBytes (f.adv 8) (g.adv 8) := ⟨by simp [h.bytes], h.fin, h.cfg⟩
        obtain ⟨_, _, y⟩ := P.recordWithHeader_run b2 v (headerAt f)
        unfold Settled Spec.recordWithHeader at hf hg
        rw [← headerAt_same h] at hg
        rcases metadata_same h' hp.wf (headerAt f) with ⟨e, e1, e2⟩ | ⟨r, r', md, i, j, len, e1, e2, e3, e4, e5, e6, _⟩
        · rw [e1] at x
          rw [e2] at y
          exact .inl ⟨e, x, y⟩
        · rw [e1] at x hf
          rw [e2] at y hg
          refine BodyOk.same x y e3 (by rw [e4]; rfl) ?_ (by rw [e4]; exact hp.wf) ?_ ?_
          · rw [e4]; simp [Flat.region]; omega
          · intro hs; exact hf (by simp only [hs])
          · intro hs; exact hg (by simp only [hs])
    · have := a2 h8 (by simp only [Flat.adv_bytes, List.length_drop]; omega)
      rw [Flat.adv_adv, show 8 + ((headerAt f).size.toNat - 8) = (headerAt f).size.toNat by omega] at this
      exact this

/-- **C55** for a list of pieces, any of which may be empty. -/
theorem c55_pieces (ps : List Slice) (cfg : ParseConfig) (hw : cfg.Wf) (len : Nat) (hlim : len < usizeLimit) :
    (len ≤ (ps.map (·.data)).flatten.length ∧ ∃ c, (P.splitAt len (Parser.new (⟨ps⟩ : ChunkBuf) cfg)).res = .ok c ∧
      (c.data.buf.chunks.map (·.data)).flatten = (ps.map (·.data)).flatten.take len) ∨
    ((ps.map (·.data)).flatten.length < len ∧
      (P.splitAt len (Parser.new (⟨ps⟩ : ChunkBuf) cfg)).res = .error (.err .eof)) := by
  have h : RepQ (fun (b : ChunkBuf) s => s.bytes = b.all ∧ s.al = .unknown ∧ s.fin = .eof) (Parser.new (⟨ps⟩ : ChunkBuf) cfg)
      ⟨⟨(ps.map (·.data)).flatten, .unknown, .eof⟩, 0, cfg⟩ := ⟨⟨rfl, rfl, rfl⟩, rfl, rfl, hw⟩
  rcases c55_split Patchy.chunkBuf h hlim with ⟨h1, c, h2, h3, _⟩ | h1
  · exact .inl ⟨h1, c, h2, h3⟩
  · exact .inr h1

/-- Empty pieces at the start, in the middle, twice in a row, and inside the record. -/
theorem demo55 : (match (P.splitAt 4 (Parser.new (⟨[⟨0, []⟩, ⟨8, [1]⟩, ⟨3, []⟩, ⟨4, []⟩, ⟨16, [2, 3, 4, 5]⟩]⟩ : ChunkBuf) demoCfg)).res with
    | .ok c => c.data.buf.chunks == [⟨.external 8, [1]⟩, ⟨.external 16, [2, 3, 4]⟩]
    | .error _ => false) = true := by decide +kernel

/-- A buffer that only ever returns empty chunks. -/
structure Stalled where
  steps : Nat

instance : ParseBuf Stalled where
  chunk b := (.ok ⟨.temporary, []⟩, b)
  advance b n := if n = 0 then some b else none
  hint _ := none
  steps b := b.steps

/-- Progress is needed: on a buffer that makes none, splitting never finishes, however many iterations it is given. -/
theorem c55_stalled (b : Stalled) (cfg : ParseConfig) (len : Nat) (h : 0 < len) :
    (P.splitAt len (Parser.new b cfg)).res = .error .diverge := by
  have hloop : ∀ (n : Nat) (acc : List Chunk) (p : Parser Stalled), (P.cursorLoop n len acc p).res = .error .diverge := by
    intro n
    induction n with
    | zero => intro acc p; rfl
    | succ n ih =>
      intro acc p
      unfold P.cursorLoop
      rw [if_neg (by omega)]
      have h1 : P.chunk p = ⟨.ok ⟨.temporary, []⟩, p, []⟩ := rfl
      rw [P.bind_nil h1]
      have ht : (⟨.temporary, []⟩ : Chunk).truncate len = ⟨.temporary, []⟩ := by simp [Chunk.truncate]
      rw [ht]
      have h2 : P.pushChunk (⟨.temporary, []⟩ : Chunk) acc p = ⟨.ok acc, p, []⟩ := rfl
      rw [P.bind_nil h2]
      have h3 : P.advance ([] : List Byte).length p = ⟨.ok (), p, []⟩ := rfl
      rw [P.bind_nil h3]
      exact ih acc p
  have h1 := P.run_eq _ (hloop (ParseBuf.steps (Parser.new b cfg).data + 1) [] (Parser.new b cfg))
  have h2 : ((P.newCursor len : P Stalled Cursor) (Parser.new b cfg)).res = .error .diverge := by
    unfold P.newCursor
    rw [P.bind_nil (P.fuel_run _), P.bind_err h1]
  unfold P.splitAt
  rw [P.bind_err (P.run_eq _ h2)]

end Perf
