import Verif.Spec.Flat
/-!
# Lawful buffers

`Lawful β` says that the buffer type `β` keeps the contract written in the documentation of `trait ParseBuf`: it
stands for a stream of bytes, `chunk` shows a nonempty piece of its front (or reports the error at its end) and
`advance` drops bytes from its front. The accuracy of `remaining_hint` is not part of it.
-/
namespace Perf

/-- The buffer's hint, if any, is at most `B`. -/
def HintLe {β : Type} [ParseBuf β] (b : β) (B : Nat) : Prop := ∀ h, ParseBuf.hint b = some h → h ≤ B

/-- What a lawful buffer's `chunk` result promises. -/
def ChunkLaw {β : Type} [ParseBuf β] (Rep : β → Stream → Prop) (b : β) (s : Stream) :
    Except Fault Chunk × β → Prop
  | (.ok c, b') =>
    c.data ≠ [] ∧ c.data <+: s.bytes ∧ s.al.Allows c.loc ∧ Rep b' s ∧
    ParseBuf.steps b' ≤ ParseBuf.steps b ∧ ParseBuf.hint b' = ParseBuf.hint b ∧
    ∀ k, k ≤ c.data.length → ∃ b'', ParseBuf.advance b' k = some b'' ∧ Rep b'' (s.drop k) ∧
      ParseBuf.steps b'' + k ≤ ParseBuf.steps b' ∧ ∀ B, HintLe b' B → HintLe b'' B
  | (.error (.err e), _) => s.bytes = [] ∧ e = s.fin
  | (.error _, _) => False

/-- A buffer type that keeps the `ParseBuf` contract. `Rep b s`: the buffer `b` stands for the stream `s`. -/
class Lawful (β : Type) [ParseBuf β] where
  Rep : β → Stream → Prop
  chunk_law : ∀ b s, Rep b s → ChunkLaw Rep b s (ParseBuf.chunk b)

/-- The buffer keeps reporting its end: after an `Eof` it still stands for the same (empty) stream. -/
def EofLaw (β : Type) [ParseBuf β] [Lawful β] : Prop :=
  ∀ (b : β) s, Lawful.Rep b s → s.bytes = [] → s.fin.kind = .eof →
    Lawful.Rep (ParseBuf.chunk b).2 s ∧ ParseBuf.hint (ParseBuf.chunk b).2 = ParseBuf.hint b

/-- A lawful buffer that keeps reporting its end. -/
class LawfulEof (β : Type) [ParseBuf β] extends Lawful β where
  eof_law : EofLaw β

/-! ## `&[u8]` -/

/-- The slice holds the bytes; the end is a plain `Eof`. -/
def Slice.Rep (b : Slice) (s : Stream) : Prop :=
  s.bytes = b.data ∧ s.fin = .eof ∧ s.al.Allows (.external b.addr)

theorem Al.Allows.add {a : Al} {addr k : Nat} (h : a.Allows (.external addr)) :
    (a.add k).Allows (.external (addr + k)) := by
  cases a <;> simp_all [Al.Allows, Al.add]
  omega

instance : LawfulEof Slice where
  Rep := Slice.Rep
  chunk_law := by
    rintro ⟨addr, data⟩ ⟨bytes, al, fin⟩ ⟨h1, h2, h3⟩
    dsimp only at h1 h2 h3
    subst h1 h2
    by_cases hd : bytes = []
    · subst hd
      simp only [ParseBuf.chunk, if_pos, ChunkLaw]
      exact ⟨trivial, trivial⟩
    · simp only [ParseBuf.chunk, if_neg hd, ChunkLaw]
      refine ⟨hd, List.prefix_rfl, h3, ⟨rfl, rfl, h3⟩, Nat.le_refl _, trivial, fun k hk => ?_⟩
      refine ⟨⟨addr + k, bytes.drop k⟩, by simp [ParseBuf.advance, hk], ⟨rfl, rfl, h3.add⟩, ?_, ?_⟩
      · simp only [ParseBuf.steps, List.length_drop]; omega
      · intro B hB h hh
        have := hB _ rfl
        simp only [ParseBuf.hint, Option.some.injEq, List.length_drop] at hh this
        omega

  eof_law _ _ h _ _ := ⟨h, rfl⟩

/-! ## `BufReader` -/

/-- The stream a list of future `read` results stands for: the bytes up to the first error or end of file. -/
inductive BufReader.Script : List ReadEvent → List Byte → ParseError → Prop
  | done : BufReader.Script [] [] .eof
  | eof (es) : BufReader.Script (.data [] :: es) [] .eof
  | error (e es) : BufReader.Script (.error e :: es) [] (.ofIo e)
  | data (bs es rest fin) : bs ≠ [] → BufReader.Script es rest fin → BufReader.Script (.data bs :: es) (bs ++ rest) fin

/-- Every list of `read` results stands for some stream. -/
theorem BufReader.Script.total : ∀ es : List ReadEvent, ∃ rest fin, BufReader.Script es rest fin
  | [] => ⟨_, _, .done⟩
  | .data [] :: es => ⟨_, _, .eof es⟩
  | .error e :: es => ⟨_, _, .error e es⟩
  | .data (b :: bs) :: es => by
    obtain ⟨rest, fin, h⟩ := BufReader.Script.total es
    exact ⟨_, _, .data (b :: bs) es rest fin (by simp) h⟩

/-- The reader holds the bytes: first those buffered, then those its `read` calls will bring before the first error
or end of file (what would come after that, if reading were tried again, is not part of the stream). -/
def BufReader.Rep (b : BufReader) (s : Stream) : Prop :=
  ∃ rest, BufReader.Script b.script rest s.fin ∧ s.bytes = b.buf ++ rest

theorem Al.allows_temporary (a : Al) : a.Allows .temporary := by
  cases a <;> simp [Al.Allows]

theorem BufReader.advance_law {buf : List Byte} {script : List ReadEvent} {rest : List Byte} {s : Stream}
    (hs : BufReader.Script script rest s.fin) (hb : s.bytes = buf ++ rest) {k : Nat} (hk : k ≤ buf.length) :
    ∃ b'', ParseBuf.advance (BufReader.mk buf script) k = some b'' ∧ BufReader.Rep b'' (s.drop k) ∧
      ParseBuf.steps b'' + k ≤ ParseBuf.steps (BufReader.mk buf script) ∧
      ∀ B, HintLe (BufReader.mk buf script) B → HintLe b'' B := by
  refine ⟨⟨buf.drop k, script⟩, rfl, ⟨rest, hs, ?_⟩, ?_, fun B hB => ?_⟩
  · simp [Stream.drop, hb, List.drop_append_of_le_length hk]
  · simp only [ParseBuf.steps, List.length_drop]; omega
  · intro h hh; simp [ParseBuf.hint] at hh

instance : Lawful BufReader where
  Rep := BufReader.Rep
  chunk_law := by
    rintro ⟨buf, script⟩ s ⟨rest, hs, hb⟩
    dsimp only at hs hb
    cases buf with
    | cons b bs =>
      simp only [ParseBuf.chunk, BufReader.fillBuf, ChunkLaw]
      refine ⟨by simp, ⟨rest, hb.symm⟩, Al.allows_temporary _, ⟨rest, hs, hb⟩, Nat.le_refl _, trivial, fun k hk => ?_⟩
      exact BufReader.advance_law hs hb hk
    | nil =>
      obtain ⟨bytes, al, fin⟩ := s
      dsimp only at hs hb
      cases hs with
      | done =>
        simp only [ParseBuf.chunk, BufReader.fillBuf, ChunkLaw]
        exact ⟨hb, trivial⟩
      | eof es =>
        simp only [ParseBuf.chunk, BufReader.fillBuf, ChunkLaw]
        exact ⟨hb, trivial⟩
      | error e es =>
        simp only [ParseBuf.chunk, BufReader.fillBuf, ChunkLaw]
        exact ⟨hb, trivial⟩
      | data bs es rest fin hne h =>
        cases bs with
        | nil => exact absurd rfl hne
        | cons b bs =>
          simp only [ParseBuf.chunk, BufReader.fillBuf, ChunkLaw]
          refine ⟨by simp, ⟨rest, by simpa using hb.symm⟩, Al.allows_temporary _, ⟨rest, h, by simpa using hb⟩, ?_, rfl,
            fun k hk => ?_⟩
          · simp [ParseBuf.steps, ReadEvent.bytes]
          · exact BufReader.advance_law (s := ⟨bytes, al, fin⟩) h (by simpa using hb) hk

/-! ## `TrackingParseBuf` -/

instance {β : Type} [ParseBuf β] [Lawful β] : Lawful (Tracking β) where
  Rep t s := Lawful.Rep t.buf s
  chunk_law := by
    rintro ⟨b, off⟩ s h
    have h' := Lawful.chunk_law b s h
    rcases hc : ParseBuf.chunk b with ⟨r, b'⟩
    rw [hc] at h'
    have hc' : ParseBuf.chunk (Tracking.mk b off) = (r, ⟨b', off⟩) := by simp [ParseBuf.chunk, hc]
    rw [hc']
    match r, h' with
    | .ok c, ⟨h1, h2, h3, h4, h5, h6, h7⟩ =>
      refine ⟨h1, h2, h3, h4, h5, h6, fun k hk => ?_⟩
      obtain ⟨b'', ha, hr, hs, hh⟩ := h7 k hk
      refine ⟨⟨b'', off + k⟩, by simp [ParseBuf.advance, ha], hr, hs, hh⟩
    | .error (.err e), h => exact h

instance {β : Type} [ParseBuf β] [LawfulEof β] : LawfulEof (Tracking β) where
  eof_law t s h h1 h2 := LawfulEof.eof_law t.buf s h h1 h2

/-! ## `ParseBufCursor` -/

/-- The pieces agree with what is known about the position of the first one. -/
def ChunksAl : Al → List Chunk → Prop
  | _, [] => True
  | a, c :: cs => a.Allows c.loc ∧ ChunksAl (a.add c.data.length) cs

/-- Contents of a list of pieces. -/
def chunksData : List Chunk → List Byte
  | [] => []
  | c :: cs => c.data ++ chunksData cs

theorem chunksData_length (cs : List Chunk) : (chunksData cs).length = chunkBytes cs := by
  induction cs with
  | nil => rfl
  | cons c cs ih => simp [chunksData, chunkBytes, ih]

theorem chunksData_append (a b : List Chunk) : chunksData (a ++ b) = chunksData a ++ chunksData b := by
  induction a with
  | nil => rfl
  | cons c cs ih => simp [chunksData, ih]

/-- The cursor is positioned inside its first piece, no piece is empty, and its length field is large enough. -/
structure Cursor.Rep (c : Cursor) (s : Stream) : Prop where
  bytes : s.bytes = (chunksData c.chunks).drop c.offset
  fin : s.fin = .eof
  nonempty : ∀ d ∈ c.chunks, d.data ≠ []
  inside : match c.chunks with
    | [] => c.offset = 0
    | d :: _ => c.offset < d.data.length
  bound : chunkBytes c.chunks ≤ c.len
  limit : c.len < usizeLimit
  al : ∃ a, s.al = a.add c.offset ∧ ChunksAl a c.chunks

theorem Al.add_add (a : Al) (i j : Nat) : (a.add i).add j = a.add (i + j) := by
  cases a <;> simp [Al.add, Nat.add_assoc]

theorem Al.add_zero (a : Al) : a.add 0 = a := by cases a <;> rfl

theorem Cursor.advance_law {c : Cursor} {s : Stream} (h : Cursor.Rep c s) {d : Chunk} {ds : List Chunk}
    (hc : c.chunks = d :: ds) {k : Nat} (hk : c.offset + k ≤ d.data.length) :
    ∃ c', c.advance k = some c' ∧ Cursor.Rep c' (s.drop k) ∧
      (chunkBytes c'.chunks - c'.offset) + k ≤ chunkBytes c.chunks - c.offset ∧ c'.len = c.len := by
  obtain ⟨chunks, offset, len⟩ := c
  obtain ⟨hbytes, hfin, hne, hin, hbound, hlim, a, ha, hal⟩ := h
  dsimp only at *
  subst hc
  simp only at hin
  simp only [chunkBytes] at hbound
  have hl1 : ¬ (offset + k ≥ usizeLimit) := by omega
  have hl2 : ¬ (k > len) := by omega
  by_cases hlt : d.data.length > offset + k
  · refine ⟨⟨d :: ds, offset + k, len⟩, ?_, ⟨?_, hfin, hne, hlt, hbound, hlim, a, ?_, hal⟩, ?_, rfl⟩
    · simp only [Cursor.advance, if_neg hl1, if_neg hl2, if_pos hlt]
    · simp only [Stream.drop, hbytes, List.drop_drop]
    · simp only [Stream.drop, ha, Al.add_add]
    · simp only [chunkBytes]; omega
  · have heq : offset + k = d.data.length := by omega
    have hns : ¬ (d.data.length < d.data.length) := Nat.lt_irrefl _
    refine ⟨⟨ds, 0, len⟩, ?_, ⟨?_, hfin, fun x hx => hne x (List.mem_cons_of_mem _ hx), ?_, ?_, hlim,
      a.add d.data.length, ?_, hal.2⟩, ?_, rfl⟩
    · simp only [Cursor.advance, if_neg hl1, if_neg hl2, if_neg hlt, Cursor.advanceSlow]
      simp only [Cursor.slowLoop, heq, if_neg hns, Nat.sub_self]
      cases ds with
      | nil => simp [Cursor.slowLoop]
      | cons e es =>
        have : 0 < e.data.length := List.length_pos_iff.mpr (hne e (by simp))
        simp only [Cursor.slowLoop, if_pos this]
    · simp only [Stream.drop, hbytes, List.drop_drop, heq, chunksData, List.drop_zero]
      exact List.drop_left
    · cases ds with
      | nil => rfl
      | cons e es => exact List.length_pos_iff.mpr (hne e (by simp))
    · dsimp only; omega
    · simp only [Stream.drop, ha, Al.add_add, heq, Nat.add_zero]
    · simp only [chunkBytes]; omega

instance : LawfulEof Cursor where
  Rep := Cursor.Rep
  chunk_law := by
    rintro c s h
    cases hc : c.chunks with
    | nil =>
      have : ParseBuf.chunk c = (.error (.err .eof), c) := by simp [ParseBuf.chunk, Cursor.chunk, hc]
      rw [this]
      refine ⟨?_, h.fin.symm⟩
      rw [h.bytes, hc]; simp [chunksData]
    | cons d ds =>
      have hin : c.offset < d.data.length := by simpa [hc] using h.inside
      have : ParseBuf.chunk c = (.ok ⟨match d.loc with
          | .external a => .external (a + c.offset)
          | .temporary => .temporary, d.data.drop c.offset⟩, c) := by
        simp only [ParseBuf.chunk, Cursor.chunk, hc, Nat.le_of_lt hin, if_true]
        cases d.loc <;> rfl
      rw [this]
      refine ⟨?_, ?_, ?_, h, Nat.le_refl _, rfl, fun k hk => ?_⟩
      · intro hd
        have := congrArg List.length hd
        simp at this; omega
      · rw [h.bytes, hc]
        simp only [chunksData, List.drop_append_of_le_length (Nat.le_of_lt hin)]
        exact List.prefix_append _ _
      · obtain ⟨a, ha, hal⟩ := h.al
        rw [hc] at hal
        rw [ha]
        have hal1 := hal.1
        cases hl : d.loc with
        | temporary => exact Al.allows_temporary _
        | external addr => rw [hl] at hal1; exact hal1.add
      · simp only [List.length_drop] at hk
        obtain ⟨c', h1, h2, h3, h4⟩ := Cursor.advance_law h hc (k := k) (by omega)
        refine ⟨c', h1, h2, h3, fun B hB => ?_⟩
        intro x hx
        apply hB
        simpa [ParseBuf.hint, h4] using hx

  eof_law _ _ h _ _ := ⟨h, rfl⟩

/-- A fresh cursor over nonempty pieces. -/
theorem Cursor.Rep.fresh {chunks : List Chunk} {len : Nat} {al : Al} (hne : ∀ d ∈ chunks, d.data ≠ [])
    (hlen : chunkBytes chunks ≤ len) (hlim : len < usizeLimit) (hal : ChunksAl al chunks) :
    Cursor.Rep ⟨chunks, 0, len⟩ ⟨chunksData chunks, al, .eof⟩ where
  bytes := by simp
  fin := rfl
  nonempty := hne
  inside := by
    cases chunks with
    | nil => rfl
    | cons e es => exact List.length_pos_iff.mpr (hne e (by simp))
  bound := hlen
  limit := hlim
  al := ⟨al, (Al.add_zero al).symm, hal⟩

/-! ## A list of borrowed pieces -/

/-- Contents of a list of borrowed pieces. -/
def piecesData (ps : List Slice) : List Byte := ps.flatMap Slice.data

/-- The buffer holds the bytes and none of its pieces is empty. -/
structure ChunkBuf.Rep (b : ChunkBuf) (s : Stream) : Prop where
  bytes : s.bytes = piecesData b.pieces
  fin : s.fin = .eof
  nonempty : ∀ d ∈ b.pieces, d.data ≠ []
  al : ChunksAl s.al (b.pieces.map fun p => ⟨.external p.addr, p.data⟩)

instance : LawfulEof ChunkBuf where
  Rep := ChunkBuf.Rep
  chunk_law := by
    rintro ⟨pieces⟩ ⟨bytes, al, fin⟩ ⟨h1, h2, h3, h4⟩
    dsimp only at h1 h2 h3 h4
    cases pieces with
    | nil => exact ⟨h1, h2.symm⟩
    | cons p ps =>
      refine ⟨h3 p (by simp), ⟨piecesData ps, by rw [h1]; rfl⟩, h4.1, ⟨h1, h2, h3, h4⟩, Nat.le_refl _, rfl, fun k hk => ?_⟩
      have hk : k ≤ p.data.length := hk
      have hnone : ∀ (b : ChunkBuf) B, HintLe b B := fun b B x hx => by simp [ParseBuf.hint] at hx
      by_cases hlt : k < p.data.length
      · refine ⟨⟨⟨p.addr + k, p.data.drop k⟩ :: ps⟩, ?_, ⟨?_, h2, ?_, ⟨h4.1.add, ?_⟩⟩, ?_, fun B _ => hnone _ B⟩
        · simp only [ParseBuf.advance, ChunkBuf.advLoop, if_pos hlt]
        · simp only [Stream.drop, h1, piecesData, List.flatMap_cons]
          rw [List.drop_append_of_le_length hk]
        · intro d hd
          rcases List.mem_cons.mp hd with rfl | hd
          · simp only [ne_eq, List.drop_eq_nil_iff]; omega
          · exact h3 d (by simp [hd])
        · have := h4.2
          simp only [Stream.drop, List.length_drop, Al.add_add] at this ⊢
          rw [show k + (p.data.length - k) = p.data.length by omega]
          exact this
        · simp only [ParseBuf.steps, ChunkBuf.cost, List.length_drop]; omega
      · have hkeq : k = p.data.length := by omega
        subst hkeq
        have hadv : ChunkBuf.advLoop ps 0 = ps := by
          cases ps with
          | nil => rfl
          | cons q qs =>
            have : 0 < q.data.length := List.length_pos_iff.mpr (h3 q (by simp))
            simp only [ChunkBuf.advLoop, if_pos this, Nat.add_zero, List.drop_zero]
        refine ⟨⟨ps⟩, ?_, ⟨?_, h2, fun d hd => h3 d (by simp [hd]), h4.2⟩, ?_, fun B _ => hnone _ B⟩
        · simp only [ParseBuf.advance, ChunkBuf.advLoop, if_neg hlt, Nat.sub_self, hadv]
        · simp only [Stream.drop, h1, piecesData, List.flatMap_cons, List.drop_left']
        · simp only [ParseBuf.steps, ChunkBuf.cost]; omega
  eof_law _ _ h _ _ := ⟨h, rfl⟩

end Perf
