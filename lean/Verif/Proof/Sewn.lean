import Verif.Proof.Woven
/-!
# Buffers that hand out given pieces

`SewnBuf F`: a buffer in a state satisfying `F pieces` hands out these pieces one after the other. On such a buffer the code does what the parser
over pieces of memory, `Woven`, says (`Weaves`).
-/
namespace Perf
open ParserM
variable {β : Type} [ParseBuf β] {F : List Chunk → β → Prop} {α α' γ T : Type}

/-! ## Pieces -/

/-- A piece from byte `n` on. -/
def Chunk.from (c : Chunk) (n : Nat) : Chunk :=
  ⟨match c.loc with
    | .external a => .external (a + n)
    | .temporary => .temporary, c.data.drop n⟩

theorem dropPieces_cons (c : Chunk) (cs : List Chunk) (n : Nat) :
    dropPieces (c :: cs) n = if n < c.data.length then c.from n :: cs else dropPieces cs (n - c.data.length) := rfl

theorem Chunk.from_zero (c : Chunk) : c.from 0 = c := by
  rcases c with ⟨l, d⟩
  cases l <;> rfl

theorem Chunk.from_from (c : Chunk) (m n : Nat) : (c.from m).from n = c.from (m + n) := by
  rcases c with ⟨l, d⟩
  cases l <;> simp [Chunk.from, Nat.add_assoc]

theorem Chunk.from_data (c : Chunk) (n : Nat) : (c.from n).data = c.data.drop n := rfl

theorem dropPieces_zero : ∀ {cs : List Chunk}, (∀ c ∈ cs, c.data ≠ []) → dropPieces cs 0 = cs
  | [], _ => rfl
  | c :: cs, h => by
    rw [dropPieces_cons, if_pos (List.length_pos_iff.2 (h c (by simp))), Chunk.from_zero]

theorem dropPieces_add : ∀ (cs : List Chunk) (m n : Nat), dropPieces (dropPieces cs m) n = dropPieces cs (m + n)
  | [], _, _ => rfl
  | c :: cs, m, n => by
    rw [dropPieces_cons, dropPieces_cons]
    by_cases hm : m < c.data.length
    · rw [if_pos hm, dropPieces_cons, Chunk.from_data, List.length_drop]
      by_cases hn : m + n < c.data.length
      · rw [if_pos (by omega), if_pos hn, Chunk.from_from]
      · rw [if_neg (by omega), if_neg hn]
        congr 1
        omega
    · rw [if_neg hm, dropPieces_add, if_neg (by omega)]
      congr 1
      omega

theorem dropPieces_mem : ∀ {cs : List Chunk} {n : Nat}, (∀ c ∈ cs, c.data ≠ []) → ∀ c ∈ dropPieces cs n, c.data ≠ []
  | [], _, _, _, hc => by cases hc
  | d :: cs, n, h, c, hc => by
    rw [dropPieces_cons] at hc
    split at hc
    · rcases List.mem_cons.1 hc with rfl | hc
      · rw [Chunk.from_data]
        intro h0
        have := List.drop_eq_nil_iff.1 h0
        omega
      · exact h c (by simp [hc])
    · exact dropPieces_mem (fun x hx => h x (by simp [hx])) c hc

theorem dropPieces_data : ∀ (cs : List Chunk) (n : Nat), chunksData (dropPieces cs n) = (chunksData cs).drop n
  | [], _ => by simp [dropPieces, chunksData]
  | c :: cs, n => by
    rw [dropPieces_cons]
    split
    · simp only [chunksData, Chunk.from_data]
      rw [List.drop_append_of_le_length (by omega)]
    · rw [dropPieces_data, chunksData, List.drop_append, List.drop_eq_nil_of_le (as := c.data) (by omega), List.nil_append]

theorem chunksData_flatMap (cs : List Chunk) : chunksData cs = cs.flatMap Chunk.data := by
  induction cs with
  | nil => rfl
  | cons c cs ih => rw [chunksData, ih, List.flatMap_cons]

theorem lie_drop : ∀ (cs : List Chunk) (m i n : Nat), lie (dropPieces cs m) i n = lie cs (m + i) n
  | [], _, _, _ => rfl
  | c :: cs, m, i, n => by
    rw [dropPieces_cons]
    by_cases hm : m < c.data.length
    · rw [if_pos hm]
      rcases c with ⟨l, d⟩
      have hm : m < d.length := hm
      cases l with
      | temporary =>
        simp only [lie, Chunk.from, List.length_drop]
        by_cases h1 : m + i < d.length
        · rw [if_pos (by omega), if_pos h1]
        · rw [if_neg (by omega), if_neg h1]; congr 1; omega
      | external a =>
        simp only [lie, Chunk.from, List.length_drop]
        by_cases h1 : m + i < d.length
        · rw [if_pos (by omega), if_pos h1]
          by_cases h2 : m + i + n ≤ d.length
          · rw [if_pos (by omega), if_pos h2, Nat.add_assoc]
          · rw [if_neg (by omega), if_neg h2]
        · rw [if_neg (by omega), if_neg h1]; congr 1; omega
    · rw [if_neg hm, lie_drop cs]
      show _ = (if m + i < c.data.length then _ else lie cs (m + i - c.data.length) n)
      rw [if_neg (by omega)]
      congr 1
      omega

/-- The first `n` bytes of the pieces. -/
def takePieces : List Chunk → Nat → List Chunk
  | [], _ => []
  | c :: cs, n => if n = 0 then [] else c.truncate n :: takePieces cs (n - (c.truncate n).data.length)

theorem lie_take : ∀ (cs : List Chunk) (k i n : Nat), i < (chunksData (takePieces cs k)).length → i + n ≤ (chunksData (takePieces cs k)).length →
    lie (takePieces cs k) i n = lie cs i n
  | [], _, _, _, h, _ => by simp [takePieces, chunksData] at h
  | c :: cs, k, i, n, h, h' => by
    unfold takePieces at h h' ⊢
    by_cases hk : k = 0
    · rw [if_pos hk] at h
      simp [chunksData] at h
    rw [if_neg hk] at h h' ⊢
    simp only [chunksData, List.length_append] at h h'
    have hloc : (c.truncate k).loc = c.loc := by unfold Chunk.truncate; split <;> rfl
    have hlen := Sim.truncate_len c k
    have ih := lie_take cs (k - (c.truncate k).data.length) (i - c.data.length) n
    generalize hc' : c.truncate k = c' at *
    simp only [lie]
    rw [hloc]
    by_cases hlt : c.data.length ≤ k
    · have hcc : c'.data.length = c.data.length := by omega
      rw [hcc] at h h' ih ⊢
      by_cases hi : i < c.data.length
      · rw [if_pos hi, if_pos hi]
      · rw [if_neg hi, if_neg hi]
        exact ih (by omega) (by omega)
    · have hz : k - c'.data.length = 0 := by omega
      have hnil : chunksData (takePieces cs (k - c'.data.length)) = [] := by
        rw [hz]
        cases cs with
        | nil => rfl
        | cons d ds => unfold takePieces; rw [if_pos rfl]; rfl
      rw [hnil] at h h'
      simp only [List.length_nil, Nat.add_zero] at h h'
      rw [if_pos h, if_pos (by omega)]
      cases c.loc with
      | temporary => rfl
      | external a => dsimp only; rw [if_pos h', if_pos (by omega)]

/-- What is left of the pieces after a piece has been taken off. -/
theorem takePieces_data_le (cs : List Chunk) (k : Nat) : (chunksData (takePieces cs k)).length ≤ (chunksData cs).length := by
  induction cs generalizing k with
  | nil => exact Nat.le_refl _
  | cons c cs ih =>
    unfold takePieces
    split
    · exact Nat.zero_le _
    · simp only [chunksData, List.length_append]
      have := Sim.truncate_len c k
      have := ih (k - (c.truncate k).data.length)
      omega

theorem takePieces_mem : ∀ {cs : List Chunk} {k : Nat}, (∀ c ∈ cs, c.data ≠ []) → ∀ c ∈ takePieces cs k, c.data ≠ []
  | [], _, _, _, hc => by cases hc
  | d :: cs, k, h, c, hc => by
    unfold takePieces at hc
    split at hc
    · cases hc
    · rcases List.mem_cons.1 hc with rfl | hc
      · intro h0
        have := Sim.truncate_len d k
        rw [h0] at this
        have := List.length_pos_iff.2 (h d (by simp))
        simp only [List.length_nil] at *
        omega
      · exact takePieces_mem (fun x hx => h x (by simp [hx])) c hc

/-! ## Buffers -/

/-- A buffer that hands out the pieces. -/
structure SewnBuf (F : List Chunk → β → Prop) : Prop where
  nonempty : ∀ cs b, F cs b → ∀ c ∈ cs, c.data ≠ []
  chunk : ∀ cs b, F cs b → F cs (ParseBuf.chunk b).2
  eof : ∀ b, F [] b → (ParseBuf.chunk b).1 = .error (.err .eof)
  first : ∀ c cs b, F (c :: cs) b → (ParseBuf.chunk b).1 = .ok c
  advance : ∀ cs b n b', F cs b → ParseBuf.advance b n = some b' → F (dropPieces cs n) b'

theorem SewnBuf.tracking (h : SewnBuf F) : SewnBuf (fun cs (t : Tracking β) => F cs t.buf) where
  nonempty cs b hb := h.nonempty cs b.buf hb
  chunk cs b hb := h.chunk cs b.buf hb
  eof b hb := h.eof b.buf hb
  first c cs b hb := h.first c cs b.buf hb
  advance cs b n b' hb hadv := by
    change (ParseBuf.advance b.buf n).map _ = _ at hadv
    simp only [Option.map_eq_some_iff] at hadv
    obtain ⟨x, hx, rfl⟩ := hadv
    exact h.advance _ _ _ _ hb hx

/-- The pieces of a slice. -/
def Slice.pieces (s : Slice) : List Chunk := if s.data = [] then [] else [⟨.external s.addr, s.data⟩]

theorem SewnBuf.slice : SewnBuf (fun cs (s : Slice) => cs = s.pieces) where
  nonempty cs b hb c hc := by
    subst hb
    unfold Slice.pieces at hc
    split at hc
    · cases hc
    · rw [List.mem_singleton.1 hc]; assumption
  chunk _ _ h := h
  eof b hb := by
    unfold Slice.pieces at hb
    split at hb
    · exact if_pos ‹_›
    · cases hb
  first c cs b hb := by
    unfold Slice.pieces at hb
    split at hb
    · cases hb
    · cases hb; exact if_neg ‹_›
  advance cs b n b' hb hadv := by
    subst hb
    change (if n ≤ b.data.length then _ else _) = _ at hadv
    split at hadv <;> cases hadv
    rename_i hn
    unfold Slice.pieces
    by_cases h0 : b.data = []
    · rw [if_pos h0, if_pos (by rw [h0]; simp)]; rfl
    · rw [if_neg h0, dropPieces_cons]
      show (if n < b.data.length then _ else _) = _
      by_cases hl : n < b.data.length
      · rw [if_pos hl, if_neg (by intro hd; have := List.drop_eq_nil_iff.1 hd; omega)]
        rfl
      · rw [if_neg hl, if_pos (List.drop_eq_nil_iff.2 (by omega))]
        rfl

/-- The pieces of a list of slices. -/
def ChunkBuf.chunks (b : ChunkBuf) : List Chunk := b.pieces.map fun s => ⟨.external s.addr, s.data⟩

theorem ChunkBuf.advLoop_chunks : ∀ (ss : List Slice) (n : Nat),
    (ChunkBuf.advLoop ss n).map (fun s => (⟨.external s.addr, s.data⟩ : Chunk)) = dropPieces (ss.map fun s => ⟨.external s.addr, s.data⟩) n
  | [], _ => rfl
  | s :: ss, n => by
    rw [List.map_cons, dropPieces_cons]
    unfold ChunkBuf.advLoop
    show _ = if n < s.data.length then _ else _
    split
    · rfl
    · exact ChunkBuf.advLoop_chunks ss _

theorem SewnBuf.chunkBuf : SewnBuf (fun cs (b : ChunkBuf) => (∀ s ∈ b.pieces, s.data ≠ []) ∧ cs = b.chunks) where
  nonempty cs b hb c hc := by
    obtain ⟨h1, rfl⟩ := hb
    obtain ⟨s, hs, rfl⟩ := List.mem_map.1 hc
    exact h1 s hs
  chunk _ _ h := h
  eof b hb := by
    rcases b with ⟨_ | ⟨s, ss⟩⟩
    · rfl
    · cases hb.2
  first c cs b hb := by
    rcases b with ⟨_ | ⟨s, ss⟩⟩
    · cases hb.2
    · cases hb.2; rfl
  advance cs b n b' hb hadv := by
    obtain ⟨h1, rfl⟩ := hb
    cases hadv
    have h2 : dropPieces b.chunks n = (ChunkBuf.mk (ChunkBuf.advLoop b.pieces n)).chunks := (ChunkBuf.advLoop_chunks b.pieces n).symm
    refine ⟨fun s hs => ?_, h2⟩
    have h3 : (⟨.external s.addr, s.data⟩ : Chunk) ∈ dropPieces b.chunks n := by rw [h2]; exact List.mem_map.2 ⟨s, hs, rfl⟩
    exact dropPieces_mem (fun c hc => by obtain ⟨s, hs, rfl⟩ := List.mem_map.1 hc; exact h1 s hs) _ h3

/-- The pieces left in a cursor. -/
structure Cursor.Sewn (cs : List Chunk) (c : Cursor) : Prop where
  nonempty : ∀ d ∈ c.chunks, d.data ≠ []
  inside : match c.chunks with
    | [] => c.offset = 0
    | d :: _ => c.offset < d.data.length
  pieces : cs = dropPieces c.chunks c.offset

theorem Cursor.slowLoop_pieces : ∀ (cs : List Chunk) (n : Nat), dropPieces (Cursor.slowLoop cs n).1 (Cursor.slowLoop cs n).2 = dropPieces cs n ∧
    (∀ d ∈ (Cursor.slowLoop cs n).1, d ∈ cs) ∧ (match (Cursor.slowLoop cs n).1 with
      | [] => True
      | d :: _ => (Cursor.slowLoop cs n).2 < d.data.length)
  | [], n => ⟨rfl, fun _ h => h, trivial⟩
  | c :: cs, n => by
    rw [dropPieces_cons]
    unfold Cursor.slowLoop
    by_cases h : n < c.data.length
    · rw [if_pos h, if_pos h]
      exact ⟨by rw [dropPieces_cons, if_pos h], fun _ h => h, h⟩
    · rw [if_neg h, if_neg h]
      obtain ⟨h1, h2, h3⟩ := Cursor.slowLoop_pieces cs (n - c.data.length)
      exact ⟨h1, fun d hd => by simp [h2 d hd], h3⟩

theorem SewnBuf.cursor : SewnBuf Cursor.Sewn where
  nonempty cs b hb c hc := by
    rw [hb.pieces] at hc
    exact dropPieces_mem hb.nonempty c hc
  chunk _ _ h := h
  eof b hb := by
    rcases b with ⟨_ | ⟨d, ds⟩, off, len⟩
    · rfl
    · have h1 : off < d.data.length := hb.inside
      have h2 := hb.pieces
      rw [dropPieces_cons, if_pos h1] at h2
      cases h2
  first c cs b hb := by
    rcases b with ⟨_ | ⟨d, ds⟩, off, len⟩
    · cases hb.pieces
    · have h1 : off < d.data.length := hb.inside
      have h2 := hb.pieces
      rw [dropPieces_cons, if_pos h1] at h2
      cases h2
      show (if off ≤ d.data.length then _ else _) = _
      rw [if_pos (Nat.le_of_lt h1)]
      rcases d with ⟨l, x⟩
      cases l <;> rfl
  advance cs b n b' hb hadv := by
    rcases b with ⟨chunks, off, len⟩
    obtain ⟨h1, h2, h3⟩ := hb
    dsimp only at h1 h2 h3
    have hslow : ∀ b', (Cursor.advanceSlow ⟨chunks, off + n, len⟩) = some b' → Cursor.Sewn (dropPieces cs n) b' := by
      intro b' hb'
      obtain ⟨g1, g2, g3⟩ := Cursor.slowLoop_pieces chunks (off + n)
      unfold Cursor.advanceSlow at hb'
      dsimp only at hb'
      rcases hsl : Cursor.slowLoop chunks (off + n) with ⟨_ | ⟨d, ds⟩, off'⟩ <;> rw [hsl] at hb' g1 g2 g3
      · dsimp only at hb'
        split at hb' <;> cases hb'
        exact ⟨nofun, ‹_›, by rw [h3, dropPieces_add, ← g1]⟩
      · cases hb'
        exact ⟨fun x hx => h1 x (g2 x hx), g3, by rw [h3, dropPieces_add, ← g1]⟩
    change Cursor.advance _ n = _ at hadv
    unfold Cursor.advance at hadv
    split at hadv
    · cases hadv
    split at hadv
    · cases hadv
    dsimp only at hadv
    cases chunks with
    | nil => exact hslow _ hadv
    | cons d ds =>
      dsimp only at hadv
      split at hadv
      · cases hadv
        exact ⟨h1, by assumption, by rw [h3, dropPieces_add]⟩
      · exact hslow _ hadv

theorem Cursor.Sewn.fresh {cs : List Chunk} {len : Nat} (h : ∀ c ∈ cs, c.data ≠ []) : Cursor.Sewn cs ⟨cs, 0, len⟩ where
  nonempty := h
  inside := by
    cases cs with
    | nil => rfl
    | cons c cs => exact List.length_pos_iff.2 (h c (by simp))
  pieces := (dropPieces_zero h).symm

/-! ## Parsers on such buffers -/

theorem SewnBuf.pchunk (h : SewnBuf F) {p : Parser β} {cs : List Chunk} (hp : F cs p.data.buf) {c : Chunk} (hc : (P.chunk p).res = .ok c) :
    (∃ ds, cs = c :: ds) ∧ F cs (P.chunk p).st.data.buf := by
  have hc' : (ParseBuf.chunk p.data.buf).1 = .ok c := hc
  refine ⟨?_, h.chunk cs _ hp⟩
  cases cs with
  | nil => rw [h.eof _ hp] at hc'; cases hc'
  | cons d ds => rw [h.first _ _ _ hp] at hc'; cases hc'; exact ⟨ds, rfl⟩

theorem SewnBuf.padvance (h : SewnBuf F) {p : Parser β} {cs : List Chunk} (hp : F cs p.data.buf) {n : Nat} {u : Unit}
    (hc : (P.advance n p).res = .ok u) : F (dropPieces cs n) (P.advance n p).st.data.buf := by
  unfold P.advance at hc ⊢
  rcases hadv : ParseBuf.advance p.data n with - | b
  · rw [hadv] at hc; cases hc
  · exact h.tracking.advance cs p.data n b hp hadv

/-- The parser has come from position `o`, where the pieces were `cs`. -/
def SewnP (F : List Chunk → β → Prop) (cs : List Chunk) (o : Nat) (p : Parser β) : Prop :=
  o ≤ p.data.offset ∧ F (dropPieces cs (p.data.offset - o)) p.data.buf

theorem SewnBuf.stable (h : SewnBuf F) (cs : List Chunk) (o : Nat) : Stable (SewnP F cs o) where
  chunk p hp := ⟨hp.1, h.chunk _ _ hp.2⟩
  advance p n hp := by
    unfold P.advance
    rcases hadv : ParseBuf.advance p.data n with - | b
    · exact hp
    · have h1 := h.tracking.advance _ p.data n b hp.2 hadv
      rw [dropPieces_add] at h1
      have h2 : b.offset = p.data.offset + n := by
        change (ParseBuf.advance p.data.buf n).map _ = _ at hadv
        simp only [Option.map_eq_some_iff] at hadv
        obtain ⟨x, hx, rfl⟩ := hadv
        rfl
      refine ⟨by dsimp only; rw [h2]; exact Nat.le_trans hp.1 (Nat.le_add_right _ _), ?_⟩
      dsimp only
      rw [h2, show p.data.offset + n - o = p.data.offset - o + n by have := hp.1; omega]
      exact h1

/-- The pieces collected for a sub-parser. -/
theorem SewnBuf.cursorLoop (h : SewnBuf F) : ∀ (m len : Nat) (acc : List Chunk) (p : Parser β) (cs out : List Chunk), F cs p.data.buf →
    (P.cursorLoop m len acc p).res = .ok out → out = (takePieces cs len).reverse ++ acc
  | 0, _, _, _, _, _, _, hr => by cases hr
  | m + 1, len, acc, p, cs, out, hp, hr => by
    unfold P.cursorLoop at hr
    by_cases h0 : len = 0
    · rw [if_pos h0] at hr
      cases hr
      cases cs with
      | nil => rfl
      | cons c cs => unfold takePieces; rw [if_pos h0]; rfl
    rw [if_neg h0] at hr
    obtain ⟨c, h1, h2⟩ := P.bind_res hr
    obtain ⟨⟨ds, rfl⟩, hp1⟩ := h.pchunk hp h1
    have hpos := List.length_pos_iff.2 (h.nonempty _ _ hp c (by simp))
    have hlen := Sim.truncate_len c len
    dsimp only at h2
    unfold takePieces
    rw [if_neg h0]
    have hdrop : dropPieces (c :: ds) (c.truncate len).data.length = ds ∨ len - (c.truncate len).data.length = 0 := by
      by_cases hl : c.data.length ≤ len
      · left
        rw [dropPieces_cons, if_neg (by omega), show (c.truncate len).data.length - c.data.length = 0 by omega]
        exact dropPieces_zero fun x hx => h.nonempty _ _ hp x (by simp [hx])
      · right; omega
    generalize c.truncate len = c' at *
    obtain ⟨out', h3, h4⟩ := P.bind_res h2
    unfold P.pushChunk at h3 h4
    rw [if_pos (by omega)] at h3 h4
    obtain ⟨cw, h5, h6⟩ := P.bind_res h3
    cases h6
    have hst : F (c :: ds) ((P.toCow c' >>= fun _ => Pure.pure (c' :: acc) : P β (List Chunk)) (P.chunk p).st).st.data.buf := by
      unfold P.toCow
      cases c'.loc <;> exact hp1
    obtain ⟨u, h7, h8⟩ := P.bind_res h4
    have hp3 := h.padvance hst h7
    have ih := SewnBuf.cursorLoop h m _ _ _ _ _ hp3 h8
    rw [ih, List.reverse_cons, List.append_assoc]
    rcases hdrop with hd | hd
    · rw [hd]; rfl
    · have hz : ∀ xs : List Chunk, takePieces xs 0 = [] := fun xs => by
        cases xs with
        | nil => rfl
        | cons x xs => unfold takePieces; rw [if_pos rfl]
      rw [hd, hz, hz]
      rfl

/-- A sub-parser has the first pieces. -/
theorem SewnBuf.splitAt (h : SewnBuf F) {p : Parser β} {cs : List Chunk} (hp : F cs p.data.buf) {n : Nat} {c : Parser Cursor}
    (hc : (P.splitAt n p).res = .ok c) : c.data.buf = ⟨takePieces cs n, 0, n⟩ := by
  obtain ⟨cur, h1, h2⟩ := P.bind_res hc
  obtain ⟨cfg, h3, h4⟩ := P.bind_res h2
  cases h4
  obtain ⟨m, h5, h6⟩ := P.bind_res h1
  obtain ⟨out, h7, h8⟩ := P.bind_res h6
  cases h8
  change (P.cursorLoop m n [] p).res = .ok out at h7
  have := h.cursorLoop m n [] p cs out hp h7
  show Cursor.mk out.reverse 0 n = _
  rw [this, List.append_nil, List.reverse_reverse]

/-- Where the bytes of a body lie: where those of the input lie, as far as there are any. -/
structure Cursor.From (cs : List Chunk) (c : Cursor) : Prop where
  nonempty : ∀ d ∈ c.chunks, d.data ≠ []
  offset : c.offset = 0
  lie : ∀ i n, i < (chunksData c.chunks).length → i + n ≤ (chunksData c.chunks).length → Perf.lie c.chunks i n = Perf.lie cs i n

theorem SewnBuf.region (h : SewnBuf F) {p : Parser β} {cs : List Chunk} (hp : F cs p.data.buf) {hd : Header} {c : Parser Cursor} {md : Metadata}
    (hr : (P.metadataWithHeader hd p).res = .ok (c, md)) : c.data.buf.From cs := by
  have first : ∀ {q : Parser Cursor} {n : Nat}, (P.splitAt n p).res = .ok q → q.data.buf.From cs := by
    intro q n hq
    rw [h.splitAt hp hq]
    exact ⟨takePieces_mem (h.nonempty _ _ hp), rfl, lie_take cs n⟩
  unfold P.metadataWithHeader at hr
  split at hr
  · cases hr
  obtain ⟨rp, h1, h2⟩ := P.bind_res hr
  dsimp only at h1 h2
  have hrp := first h1
  split at h2
  · cases h2; exact hrp
  split at h2
  · cases h2
  obtain ⟨⟨q, rp'⟩, h3, h4⟩ := P.bind_res h2
  obtain ⟨sid, h5, h6⟩ := P.bind_res h4
  cases h6
  unfold P.onChild at h3
  rcases hm : (P.splitAt (hd.size.toNat - 8 - SampleId.estimateLen rp.config) rp).res with e | x <;> simp only [hm] at h3 <;> cases h3
  have hs : Cursor.Sewn rp.data.buf.chunks rp.data.buf := by
    have h7 := hrp.offset
    rcases hb : rp.data.buf with ⟨chunks, off, len⟩
    rw [hb] at h7
    cases h7
    refine .fresh ?_
    have := hrp.nonempty
    rw [hb] at this
    exact this
  have hq := SewnBuf.cursor.splitAt hs hm
  rw [hq]
  refine ⟨takePieces_mem hrp.nonempty, rfl, fun i n h8 h9 => ?_⟩
  have := takePieces_data_le rp.data.buf.chunks (hd.size.toNat - 8 - SampleId.estimateLen rp.config)
  dsimp only at h8 h9 ⊢
  rw [lie_take _ _ _ _ h8 h9]
  exact hrp.lie i n (by omega) (by omega)

end Perf
