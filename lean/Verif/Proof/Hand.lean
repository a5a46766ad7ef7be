import Verif.Proof.Cows
import Verif.Proof.Prim
/-!
# Which data may be borrowed

`Handing E T`: a buffer in a state satisfying `T` calls `External` only data satisfying `E`, now and later.
`OneBuf T`: a buffer in a state satisfying `T d` hands out `d` as one borrowed chunk.
-/
namespace Perf
variable {β : Type} [ParseBuf β] {O : Type}

/-- What the sub-parser of the body is like. -/
theorem Inv.regionOf {I : Parser β → Prop} {G : Cursor → Prop}
    (hsplit : ∀ n, Inv I (fun c => G c.data.buf) (P.splitAt n : P β (Parser Cursor)))
    (hsplit2 : ∀ n (p q : Parser Cursor), G p.data.buf → (P.splitAt n p).res = .ok q → G q.data.buf) (hd : Header) :
    Inv I (fun r => G r.1.data.buf) (P.metadataWithHeader hd : P β (Parser Cursor × Metadata)) := by
  unfold P.metadataWithHeader
  refine Inv.ite (fun _ => Inv.fail _) fun _ => Inv.bind (hsplit _) fun rp hrp => ?_
  refine Inv.ite (fun _ => Inv.pure hrp) fun _ => Inv.ite (fun _ => Inv.fail _) fun _ => ?_
  refine Inv.bind (Q := fun r => G r.1.data.buf) ?_ fun r hr => Inv.skip ?_ fun _ => Inv.pure hr
  · intro q hq
    unfold P.onChild
    rcases hm : (P.splitAt (hd.size.toNat - 8 - SampleId.estimateLen rp.config) rp).res with e | x <;> simp only [hm]
    · exact ⟨hq, nofun⟩
    · exact ⟨hq, fun a ha => by cases ha; exact hsplit2 _ rp _ hrp hm⟩
  · intro q hq
    unfold P.onChild
    rcases hm : ((parseSampleId : P Cursor SampleId) r.2).res with e | x <;> simp only [hm] <;> exact ⟨hq, fun _ _ => trivial⟩

/-- Where the record parsers run: on a cursor or, for one borrowed chunk, on that slice. -/
theorem record_all {I : Parser β → Prop} {G : Cursor → Prop} {GS : Slice → Prop} {QB : Cow Byte → Prop}
    {QL : ∀ {T : Type}, Cow T → Prop} (s : Stable I)
    (hsplit : ∀ n, Inv I (fun c => G c.data.buf) (P.splitAt n : P β (Parser Cursor)))
    (hsplit2 : ∀ n (p q : Parser Cursor), G p.data.buf → (P.splitAt n p).res = .ok q → G q.data.buf)
    (hslice : ∀ c s, G c → c.asSlice = some s → GS s)
    (kc : ∀ p : Parser (Tracking Cursor), G p.data.buf.buf → ∃ I QB', I p ∧ Keeps I QB' QL ∧ ∀ c, QB' c → QB c)
    (ks : ∀ p : Parser (Tracking Slice), GS p.data.buf.buf → ∃ I QB', I p ∧ Keeps I QB' QL ∧ ∀ c, QB' c → QB c)
    (v : Visitor Cow O) {p : Parser β} (hp : I p) {r : O} (h : (P.record v p).res = .ok r) :
    ∃ (a : Record Cow) (md : Metadata), a.All QB QL ∧ v.apply a md = .ok r := by
  have hmd := Inv.regionOf hsplit hsplit2
  obtain ⟨hd, h1, h2⟩ := P.bind_res h
  have hhd : Inv I (fun _ => True) (parseHeader : P β Header) :=
    Inv.skip (Inv.u32 s) fun _ => Inv.skip (Inv.u16 s) fun _ => Inv.skip (Inv.u16 s) fun _ => Inv.pure trivial
  have hp1 := (hhd p hp).1
  obtain ⟨⟨c, md⟩, h3, h4⟩ := P.bind_res h2
  have hc : G c.data.buf := (hmd hd _ hp1).2 _ h3
  dsimp only at h4
  refine (?_ : ∃ a : Record Cow, a.All QB QL ∧ v.apply a md = .ok r).imp fun a ha => ⟨md, ha⟩
  have run : ∀ {γ : Type} [ParseBuf γ] (q : Parser γ) (st : Parser β),
      (∃ I QB', I (Parser.new q.data (q.config.withMisc md.misc)) ∧ Keeps I QB' QL ∧ ∀ c, QB' c → QB c) → (P.recordImpl q v md st).res = .ok r →
      ∃ a : Record Cow, a.All QB QL ∧ v.apply a md = .ok r := by
    intro γ _ q st ⟨J, QB', hq, k, hmono⟩ hr
    obtain ⟨x, h5, h6⟩ := P.bind_res hr
    cases h6
    unfold P.onChild at h5
    rcases hm : (P.dispatch v md (Parser.new q.data (q.config.withMisc md.misc))).res with e | y <;> simp only [hm] at h5 <;>
      cases h5
    exact (k.dispatch v md hq hm).imp fun _ ha => ⟨ha.1.mono hmono, ha.2⟩
  rcases hsl : c.data.buf.asSlice with - | sl
  · rw [hsl] at h4
    exact run _ _ (kc _ hc) h4
  · rw [hsl] at h4
    exact run (Parser.new sl c.config) _ (ks _ (hslice _ sl hc hsl)) h4

/-! ## Handing -/

/-- What a buffer calls borrowed. -/
structure Handing (E : List Byte → Prop) (T : β → Prop) : Prop where
  chunk : ∀ b, T b → T (ParseBuf.chunk b).2
  advance : ∀ b n b', T b → ParseBuf.advance b n = some b' → T b'
  ext : ∀ b a d, T b → (ParseBuf.chunk b).1 = .ok ⟨.external a, d⟩ → E d

/-- A property passed on to parts. -/
structure PartClosed (E : List Byte → Prop) : Prop where
  take : ∀ d n, E d → E (d.take n)
  drop : ∀ d n, E d → E (d.drop n)

variable {E : List Byte → Prop} {T : β → Prop}

theorem Handing.tracking (h : Handing E T) : Handing E (fun t : Tracking β => T t.buf) where
  chunk b hb := h.chunk b.buf hb
  advance b n b' hb hadv := by
    change (ParseBuf.advance b.buf n).map _ = _ at hadv
    simp only [Option.map_eq_some_iff] at hadv
    obtain ⟨x, hx, rfl⟩ := hadv
    exact h.advance _ _ _ hb hx
  ext b a d hb hc := h.ext b.buf a d hb hc

theorem Handing.stable (h : Handing E T) : Stable (fun p : Parser β => T p.data.buf) where
  chunk p hp := h.chunk _ hp
  advance p n hp := by
    unfold P.advance
    split
    · rename_i d hd
      exact h.tracking.advance p.data n d hp hd
    · exact hp

/-- The chunks a parser sees. -/
def Chunk.Ok (E : List Byte → Prop) (c : Chunk) : Prop := ∀ a, c.loc = .external a → E c.data

theorem Handing.pchunk (h : Handing E T) : Inv (fun p : Parser β => T p.data.buf) (Chunk.Ok E) (P.chunk : P β Chunk) :=
  fun p hp => ⟨h.stable.chunk p hp, fun c hc a ha => h.ext p.data.buf a c.data hp (by rw [← ha]; exact hc)⟩

/-- What is borrowed is (part of) something the buffer called borrowed. -/
def Lent (E : List Byte → Prop) (c : Cow Byte) : Prop := ∀ d, c = .borrowed d → d = [] ∨ E d

/-- A borrowed list of numbers or structures is read in place from something the buffer called borrowed. -/
def LentL (E : List Byte → Prop) {X : Type} (c : Cow X) : Prop :=
  ∀ d, c = .borrowed d → ∃ (e : Elem X) (conv : List Byte → U64) (n : Nat) (bs : List Byte),
    E bs ∧ bs.length = n * e.size ∧ d = e.decodeAll conv n bs

theorem Chunk.Ok.truncate (hE : PartClosed E) {c : Chunk} (h : c.Ok E) (n : Nat) : (c.truncate n).Ok E := by
  unfold Chunk.truncate
  split
  · exact h
  · exact fun a ha => hE.take _ _ (h a ha)

theorem Handing.cursorLoop (h : Handing E T) (hE : PartClosed E) : ∀ (n len : Nat) (cs : List Chunk), (∀ c ∈ cs, c.Ok E) →
    Inv (fun p : Parser β => T p.data.buf) (fun out => ∀ c ∈ out, c.Ok E) (P.cursorLoop n len cs : P β (List Chunk))
  | 0, _, _, _ => Inv.fault _
  | n + 1, len, cs, hcs => by
    unfold P.cursorLoop
    refine Inv.ite (fun _ => Inv.pure hcs) fun _ => Inv.bind h.pchunk fun c hc => ?_
    refine Inv.bind (Q := fun out => ∀ c ∈ out, c.Ok E) ?_ fun out hout =>
      Inv.skip (Inv.advance h.stable _) fun _ => Handing.cursorLoop h hE n _ out hout
    unfold P.pushChunk
    refine Inv.ite (fun _ => Inv.skip ((Inv.toCow _).mono fun _ _ => trivial) fun _ => Inv.pure ?_) fun _ => Inv.pure hcs
    intro x hx
    rcases List.mem_cons.mp hx with rfl | hx
    · exact hc.truncate hE len
    · exact hcs x hx

/-- The borrowed chunks in a cursor. -/
def Cursor.Ok (E : List Byte → Prop) (c : Cursor) : Prop := ∀ x ∈ c.chunks, x.Ok E

theorem Handing.splitAt (h : Handing E T) (hE : PartClosed E) (n : Nat) :
    Inv (fun p : Parser β => T p.data.buf) (fun c => c.data.buf.Ok E) (P.splitAt n : P β (Parser Cursor)) := by
  refine Inv.bind (Q := fun c : Cursor => c.Ok E) ?_ fun c hc => Inv.skip Inv.config fun _ => Inv.pure hc
  refine Inv.skip Inv.fuel fun _ => Inv.bind (h.cursorLoop hE _ _ [] (by simp)) fun out hout => Inv.pure ?_
  exact fun x hx => hout x (List.mem_reverse.mp hx)

theorem Cursor.slowLoop_mem : ∀ (cs : List Chunk) (off : Nat) (x : Chunk), x ∈ (Cursor.slowLoop cs off).1 → x ∈ cs
  | [], _, _, h => h
  | c :: cs, off, x, h => by
    unfold Cursor.slowLoop at h
    split at h
    · exact h
    · exact List.mem_cons_of_mem _ (Cursor.slowLoop_mem cs _ x h)

theorem Cursor.advanceSlow_mem {c c' : Cursor} (h : c.advanceSlow = some c') (x : Chunk) (hx : x ∈ c'.chunks) : x ∈ c.chunks := by
  unfold Cursor.advanceSlow at h
  split at h
  · split at h <;> cases h
    exact absurd hx (by simp)
  · rename_i d ds off heq
    cases h
    exact Cursor.slowLoop_mem c.chunks c.offset x (by rw [heq]; exact hx)

theorem Cursor.advance_mem {c c' : Cursor} {n : Nat} (h : c.advance n = some c') (x : Chunk) (hx : x ∈ c'.chunks) : x ∈ c.chunks := by
  unfold Cursor.advance at h
  split at h
  · cases h
  split at h
  · cases h
  dsimp only at h
  split at h
  · split at h
    · cases h; exact hx
    · exact Cursor.advanceSlow_mem h x hx
  · exact Cursor.advanceSlow_mem h x hx

/-- A cursor passes on what it was given. -/
theorem Handing.cursor (hE : PartClosed E) : Handing E (Cursor.Ok E) where
  chunk _ h := h
  advance b n b' h hadv := fun x hx => h x (Cursor.advance_mem hadv x hx)
  ext b a d h hc := by
    change b.chunk = _ at hc
    unfold Cursor.chunk at hc
    split at hc
    · cases hc
    rename_i x xs hxs
    split at hc
    · cases hl : x.loc with
      | temporary => rw [hl] at hc; cases hc
      | external a' => rw [hl] at hc; cases hc; exact hE.drop _ _ (h x (by rw [hxs]; simp) a' hl)
    · cases hc

/-- A slice hands out its own bytes. -/
theorem Handing.slice (hE : PartClosed E) : Handing E (fun s : Slice => E s.data) where
  chunk _ h := h
  advance b n b' h hadv := by
    change (if n ≤ b.data.length then _ else _) = _ at hadv
    split at hadv <;> cases hadv
    exact hE.drop _ _ h
  ext b a d h hc := by
    change (if b.data = [] then _ else _) = _ at hc
    split at hc <;> cases hc
    exact h

theorem Handing.bytesDirect (h : Handing E T) (hE : PartClosed E) (n : Nat) :
    Inv (fun p : Parser β => T p.data.buf) (fun r => ∀ x, r = some x → E x.2 ∧ x.2.length = n)
      (P.bytesDirect n : P β (Option (Nat × List Byte))) := by
  refine Inv.bind h.pchunk fun c hc => ?_
  split
  · exact Inv.pure nofun
  · rename_i addr haddr
    refine Inv.ite (fun _ => Inv.pure nofun) fun hlen => Inv.skip (Inv.advance h.stable _) fun _ => Inv.pure ?_
    intro x hx
    cases hx
    exact ⟨hE.take _ _ (hc addr haddr), by simp only [List.length_take]; omega⟩

theorem Handing.restLoop (h : Handing E T) : ∀ (n : Nat) (c : Cow Byte), Lent E c →
    Inv (fun p : Parser β => T p.data.buf) (Lent E) (P.restLoop n c : P β (Cow Byte))
  | 0, _, _ => Inv.fault _
  | n + 1, c, hc => by
    refine Inv.skip (Inv.chunkResult h.stable) fun r => ?_
    split
    · exact Inv.skip (Inv.advance h.stable _) fun _ => Handing.restLoop h n _ nofun
    · exact Inv.ite (fun _ => Inv.pure hc) fun _ => Inv.fail _

/-- Parsing over a buffer of any kind: what is borrowed was handed out as borrowed. -/
theorem Handing.keeps (h : Handing E T) (hE : PartClosed E) :
    Keeps (fun p : Parser β => T p.data.buf) (Lent E) (LentL E) where
  stable := h.stable
  bytes n := by
    refine Inv.bind (h.bytesDirect hE n) fun r hr => ?_
    split
    · exact Inv.pure fun d hd => by cases hd; exact .inr (hr _ rfl).1
    · exact Inv.skip Inv.hint fun _ => Inv.ite (fun _ => Inv.skip (Inv.alloc _) fun _ => Inv.skip (Inv.toSlice h.stable _) fun _ =>
        Inv.pure nofun) fun _ => Inv.skip (Inv.bytesSlow h.stable _) fun _ => Inv.pure nofun
  rest := by
    refine Inv.bind h.pchunk fun c hc => Inv.bind (Inv.toCow c) fun x hx => Inv.skip (Inv.advance h.stable _) fun _ =>
      Inv.skip Inv.fuel fun _ => h.restLoop _ _ ?_
    subst hx
    intro d hd
    unfold Chunk.toCow at hd
    split at hd <;> cases hd
    rename_i a ha
    exact .inr (hc a ha)
  slice e item n hi := by
    refine Inv.bind (Q := fun r => ∀ l, r = some l → LentL E (Cow.borrowed l)) ?_ fun r hr => ?_
    · unfold P.sliceDirect
      refine Inv.skip Inv.config fun cfg => Inv.ite (fun _ => Inv.pure nofun) fun _ => Inv.ite (fun _ => Inv.fail _) fun _ => ?_
      refine Inv.bind (h.bytesDirect hE _) fun r hr => ?_
      split
      · exact Inv.pure nofun
      · refine Inv.ite (fun _ => Inv.pure ?_) fun _ => Inv.pure nofun
        intro l hl d hd
        cases hl
        cases hd
        exact ⟨e, _, n, _, (hr _ rfl).1, (hr _ rfl).2, rfl⟩
    · split
      · exact Inv.pure (hr _ rfl)
      · exact Inv.skip (Inv.skip (Inv.safeCapacityBound _) fun _ => Inv.skip (Inv.alloc _) fun _ => Inv.repeatedLoop hi _) fun _ =>
          Inv.pure nofun
  owned _ := nofun
  truncate c n hc := by
    intro d hd
    unfold Cow.truncate at hd
    split at hd
    · cases hd
    · rename_i x
      split at hd <;> cases hd
      · exact hc _ rfl
      · rcases hc x rfl with rfl | hx
        · exact .inl (by simp)
        · exact .inr (hE.take _ _ hx)
  split c n a b hc hs := by
    unfold Cow.splitAt at hs
    split at hs
    · rename_i x
      split at hs <;> cases hs
      rcases hc x rfl with rfl | hx
      · exact ⟨fun d hd => by cases hd; exact .inl (by simp), fun d hd => by cases hd; exact .inl (by simp)⟩
      · exact ⟨fun d hd => by cases hd; exact .inr (hE.take _ _ hx), fun d hd => by cases hd; exact .inr (hE.drop _ _ hx)⟩
    · split at hs
      · cases hs; exact ⟨nofun, fun d hd => by cases hd; exact .inl rfl⟩
      split at hs
      · cases hs; exact ⟨fun d hd => by cases hd; exact .inl rfl, nofun⟩
      split at hs <;> cases hs
      exact ⟨nofun, nofun⟩

/-- Every container in what the visitor is handed, for any buffer. -/
theorem Handing.record (h : Handing E T) (hE : PartClosed E) (v : Visitor Cow O) {p : Parser β} (hp : T p.data.buf) {r : O}
    (hr : (P.record v p).res = .ok r) :
    ∃ (a : Record Cow) (md : Metadata), a.All (Lent E) (LentL E) ∧ v.apply a md = .ok r := by
  refine record_all (I := fun p => T p.data.buf) (G := Cursor.Ok E) (GS := fun s => E s.data) h.stable (h.splitAt hE)
    (fun n p q hp hq => ((Handing.cursor hE).splitAt hE n p hp).2 q hq) ?_ (fun _ h => ⟨_, _, h, (Handing.cursor hE).tracking.keeps hE, fun _ h => h⟩)
    (fun _ h => ⟨_, _, h, (Handing.slice hE).tracking.keeps hE, fun _ h => h⟩) v hp hr
  intro c s hc hs
  unfold Cursor.asSlice at hs
  split at hs
  · rename_i a d hcs
    cases hs
    exact hc ⟨.external a, d⟩ (by rw [hcs]; simp) a rfl
  · cases hs

/-! ## One borrowed chunk -/

/-- A buffer that hands out everything it has as one borrowed chunk. -/
structure OneBuf (T : List Byte → β → Prop) : Prop where
  chunk : ∀ d b, T d b → T d (ParseBuf.chunk b).2
  eof : ∀ b, T [] b → (ParseBuf.chunk b).1 = .error (.err .eof)
  one : ∀ d b, T d b → d ≠ [] → ∃ a, (ParseBuf.chunk b).1 = .ok ⟨.external a, d⟩
  advance : ∀ d b n b', T d b → ParseBuf.advance b n = some b' → T (d.drop n) b'

variable {F : List Byte → β → Prop}

theorem OneBuf.tracking (h : OneBuf F) : OneBuf (fun d (t : Tracking β) => F d t.buf) where
  chunk d b hb := h.chunk d b.buf hb
  eof b hb := h.eof b.buf hb
  one d b hb := h.one d b.buf hb
  advance d b n b' hb hadv := by
    change (ParseBuf.advance b.buf n).map _ = _ at hadv
    simp only [Option.map_eq_some_iff] at hadv
    obtain ⟨x, hx, rfl⟩ := hadv
    exact h.advance _ _ _ _ hb hx

theorem OneBuf.slice : OneBuf (fun d (s : Slice) => s.data = d) where
  chunk _ _ h := h
  eof b h := if_pos h
  one d b h hd := ⟨b.addr, by subst h; exact if_neg hd⟩
  advance d b n b' h hadv := by
    change (if n ≤ b.data.length then _ else _) = _ at hadv
    split at hadv <;> cases hadv
    subst h; rfl

/-- A cursor over at most one borrowed chunk. -/
def Cursor.One (d : List Byte) (c : Cursor) : Prop :=
  (c.chunks = [] ∧ d = []) ∨ ∃ a full, c.chunks = [⟨.external a, full⟩] ∧ c.offset < full.length ∧ d = full.drop c.offset

theorem OneBuf.cursor : OneBuf Cursor.One where
  chunk _ _ h := h
  eof b h := by
    show b.chunk = _
    rcases h with ⟨h, -⟩ | ⟨a, full, h1, h2, h3⟩
    · unfold Cursor.chunk; rw [h]
    · have := congrArg List.length h3
      rw [List.length_drop] at this
      simp only [List.length_nil] at this
      omega
  one d b h hd := by
    rcases h with ⟨-, h⟩ | ⟨a, full, h1, h2, h3⟩
    · exact absurd h hd
    · refine ⟨a + b.offset, ?_⟩
      show b.chunk = _
      unfold Cursor.chunk
      rw [h1]
      dsimp only
      rw [if_pos (by omega), h3]
  advance d b n b' h hadv := by
    change b.advance n = _ at hadv
    unfold Cursor.advance at hadv
    split at hadv
    · cases hadv
    split at hadv
    · cases hadv
    rcases h with ⟨h, rfl⟩ | ⟨a, full, h1, h2, rfl⟩
    · have : b'.chunks = [] := by
        refine List.eq_nil_iff_forall_not_mem.mpr fun x hx => ?_
        rw [h] at hadv
        dsimp only at hadv
        exact absurd (Cursor.advanceSlow_mem hadv x hx) (by simp)
      exact .inl ⟨this, by simp⟩
    · rw [h1] at hadv
      dsimp only at hadv
      split at hadv
      · rename_i hlt
        cases hadv
        exact .inr ⟨a, full, rfl, hlt, by rw [List.drop_drop]⟩
      · rename_i hge
        unfold Cursor.advanceSlow Cursor.slowLoop at hadv
        simp only [if_neg (show ¬ b.offset + n < full.length by omega), Cursor.slowLoop] at hadv
        split at hadv <;> cases hadv
        exact .inl ⟨rfl, by rw [List.drop_drop]; exact List.drop_eq_nil_of_le (by omega)⟩

/-- The chunk and what is left behind. -/
theorem OneBuf.pchunk (h : OneBuf F) {p : Parser β} {d : List Byte} (hp : F d p.data.buf) {c : Chunk}
    (hc : (P.chunk p).res = .ok c) : d ≠ [] ∧ c.data = d ∧ (∃ a, c.loc = .external a) ∧ F d (P.chunk p).st.data.buf := by
  have hc' : (ParseBuf.chunk p.data.buf).1 = .ok c := hc
  by_cases hd : d = []
  · subst hd
    rw [h.eof _ hp] at hc'
    cases hc'
  · obtain ⟨a, ha⟩ := h.one d _ hp hd
    rw [ha] at hc'
    cases hc'
    exact ⟨hd, rfl, ⟨a, rfl⟩, h.chunk d _ hp⟩

theorem OneBuf.padvance (h : OneBuf F) {p : Parser β} {d : List Byte} (hp : F d p.data.buf) {n : Nat} {u : Unit}
    (hc : (P.advance n p).res = .ok u) : F (d.drop n) (P.advance n p).st.data.buf := by
  unfold P.advance at hc ⊢
  rcases hadv : ParseBuf.advance p.data n with - | b
  · rw [hadv] at hc; cases hc
  · exact h.tracking.advance d p.data n b hp hadv

theorem Sim.truncate_len (c : Chunk) (n : Nat) : (c.truncate n).data.length = min n c.data.length := by
  unfold Chunk.truncate
  split
  · omega
  · simp only [List.length_take]

/-- `parse_bytes_slow` cannot succeed with more than there is. -/
theorem OneBuf.bytesSlowLoop (h : OneBuf F) : ∀ (n len : Nat) (acc : List Byte) (p : Parser β) (d r : List Byte),
    F d p.data.buf → (P.bytesSlowLoop n len acc p).res = .ok r → len ≤ d.length
  | 0, _, _, _, _, _, _, hr => by cases hr
  | n + 1, len, acc, p, d, r, hp, hr => by
    unfold P.bytesSlowLoop at hr
    by_cases h0 : len = 0
    · omega
    rw [if_neg h0] at hr
    obtain ⟨c, h1, h2⟩ := P.bind_res hr
    obtain ⟨hd, hcd, -, hp1⟩ := h.pchunk hp h1
    obtain ⟨u, h3, h4⟩ := P.bind_res h2
    have := OneBuf.bytesSlowLoop h n _ _ _ _ _ (h.padvance hp1 h3) h4
    rw [List.length_drop, Sim.truncate_len, hcd] at this
    have := List.length_pos_iff.mpr hd
    omega

theorem OneBuf.toSliceLoop (h : OneBuf F) : ∀ (n len : Nat) (acc : List Byte) (p : Parser β) (d r : List Byte),
    F d p.data.buf → (P.toSliceLoop n len acc p).res = .ok r → len ≤ d.length
  | 0, _, _, _, _, _, _, hr => by cases hr
  | n + 1, len, acc, p, d, r, hp, hr => by
    unfold P.toSliceLoop at hr
    by_cases h0 : len = 0
    · omega
    rw [if_neg h0] at hr
    obtain ⟨c, h1, h2⟩ := P.bind_res hr
    obtain ⟨hd, hcd, -, hp1⟩ := h.pchunk hp h1
    obtain ⟨u, h3, h4⟩ := P.bind_res h2
    have := OneBuf.toSliceLoop h n _ _ _ _ _ (h.padvance hp1 h3) h4
    rw [List.length_drop, hcd] at this
    have := List.length_pos_iff.mpr hd
    omega

/-- Everything still to be read is a tail of `D`. -/
def OneIn (F : List Byte → β → Prop) (D : List Byte) (p : Parser β) : Prop := ∃ d, d <:+ D ∧ F d p.data.buf

theorem OneBuf.stable (h : OneBuf F) (D : List Byte) : Stable (OneIn F D) where
  chunk p := fun ⟨d, hd, hp⟩ => ⟨d, hd, h.chunk d _ hp⟩
  advance p n := fun ⟨d, hd, hp⟩ => by
    unfold P.advance
    split
    · rename_i b hb
      exact ⟨_, (List.drop_suffix n d).trans hd, h.tracking.advance d p.data n b hp hb⟩
    · exact ⟨d, hd, hp⟩

/-- A borrow of a contiguous part of `D`. -/
def PartOf (D : List Byte) (c : Cow Byte) : Prop := ∃ d, c = .borrowed d ∧ d <:+: D

/-- `parse_bytes` borrows. -/
theorem OneBuf.bytes (h : OneBuf F) (D : List Byte) (n : Nat) : Inv (OneIn F D) (PartOf D) (P.bytes n : P β (Cow Byte)) := by
  intro p hp
  refine ⟨(Inv.bytes (h.stable D) n p hp).1, fun x hx => ?_⟩
  obtain ⟨d, hd, hp⟩ := hp
  obtain ⟨r, h1, h2⟩ := P.bind_res hx
  obtain ⟨c, h3, h4⟩ := P.bind_res h1
  obtain ⟨hne, hcd, ⟨a, ha⟩, hp1⟩ := h.pchunk hp h3
  rw [ha] at h4
  dsimp only at h4
  by_cases hlen : c.data.length < n
  · rw [if_pos hlen] at h4
    cases h4
    have hst : F d (P.bytesDirect n p).st.data.buf := by
      show F d ((P.chunk >>= _ : P β _) p).st.data.buf
      rw [P.bind_ok (P.run_eq _ h3), ha]
      dsimp only
      rw [if_pos hlen]
      exact hp1
    dsimp only at h2
    obtain ⟨hn, h5, h6⟩ := P.bind_res h2
    rw [hcd] at hlen
    exfalso
    by_cases hh : P.hintAtLeast hn n = true
    · rw [if_pos hh] at h6
      obtain ⟨-, h7, h8⟩ := P.bind_res h6
      obtain ⟨bs, h9, -⟩ := P.bind_res h8
      obtain ⟨m, h10, h11⟩ := P.bind_res h9
      exact absurd (h.toSliceLoop _ _ _ _ d _ hst h11) (by omega)
    · rw [if_neg hh] at h6
      obtain ⟨bs, h7, -⟩ := P.bind_res h6
      obtain ⟨bd, h8, h9⟩ := P.bind_res h7
      obtain ⟨-, h10, h11⟩ := P.bind_res h9
      obtain ⟨m, h12, h13⟩ := P.bind_res h11
      refine absurd (h.bytesSlowLoop _ _ _ _ d _ ?_ h13) (by omega)
      show F d (P.safeCapacityBound 1 _).st.data.buf
      unfold P.safeCapacityBound
      rw [if_neg (by omega)]
      exact hst
  · rw [if_neg hlen] at h4
    obtain ⟨u, h5, h6⟩ := P.bind_res h4
    cases h6
    cases h2
    exact ⟨_, rfl, hcd ▸ ((List.take_prefix n d).isInfix.trans hd.isInfix)⟩

/-- `parse_rest` borrows. -/
theorem OneBuf.rest (h : OneBuf F) (D : List Byte) : Inv (OneIn F D) (PartOf D) (P.rest : P β (Cow Byte)) := by
  intro p hp
  refine ⟨(Inv.rest (h.stable D) p hp).1, fun x hx => ?_⟩
  obtain ⟨d, hd, hp⟩ := hp
  obtain ⟨c, h1, h2⟩ := P.bind_res hx
  obtain ⟨hne, hcd, ⟨a, ha⟩, hp1⟩ := h.pchunk hp h1
  have hcow : (P.toCow c : P β (Cow Byte)) = pure (.borrowed d) := by
    unfold P.toCow
    rw [ha]
    show Pure.pure c.toCow = _
    unfold Chunk.toCow
    rw [ha, hcd]
  rw [hcow] at h2
  obtain ⟨y, h3, h4⟩ := P.bind_res h2
  cases h3
  obtain ⟨u, h5, h6⟩ := P.bind_res h4
  have hp2 := h.padvance (p := (P.chunk p).st) hp1 h5
  obtain ⟨m, h7, h8⟩ := P.bind_res h6
  cases h7
  rw [show List.drop (Cow.borrowed d).data.length d = [] from List.drop_eq_nil_of_le (Nat.le_refl _)] at hp2
  refine ⟨d, ?_, hd.isInfix⟩
  obtain ⟨r, h9, h10⟩ := P.bind_res h8
  have he : (P.chunkResult (P.advance (Cow.borrowed d).data.length (P.chunk p).st).st).res = .ok (.error .eof) := by
    unfold P.chunkResult
    have := h.eof _ hp2
    rw [show (ParseBuf.chunk (P.advance (Cow.borrowed d).data.length (P.chunk p).st).st.data).1 = _ from this]
  have : r = .error .eof := by
    have h9' : (P.chunkResult (P.advance (Cow.borrowed d).data.length (P.chunk p).st).st).res = .ok r := h9
    rw [he] at h9'
    cases h9'; rfl
  subst this
  dsimp only at h10
  rw [if_pos (show ParseError.eof.kind = .eof from rfl)] at h10
  cases h10
  rfl

theorem PartOf.truncate {D : List Byte} {c : Cow Byte} (n : Nat) (h : PartOf D c) : PartOf D (c.truncate n) := by
  obtain ⟨d, rfl, hd⟩ := h
  unfold Cow.truncate
  dsimp only
  split
  · exact ⟨d, rfl, hd⟩
  · exact ⟨_, rfl, (List.take_prefix n d).isInfix.trans hd⟩

theorem PartOf.split {D : List Byte} {c a b : Cow Byte} {n : Nat} (h : PartOf D c) (hs : c.splitAt n = some (a, b)) :
    PartOf D a ∧ PartOf D b := by
  obtain ⟨d, rfl, hd⟩ := h
  unfold Cow.splitAt at hs
  dsimp only at hs
  split at hs <;> cases hs
  exact ⟨⟨_, rfl, (List.take_prefix n d).isInfix.trans hd⟩, ⟨_, rfl, (List.drop_suffix n d).isInfix.trans hd⟩⟩

/-- Parsing over one borrowed chunk borrows. -/
theorem OneBuf.keeps (h : OneBuf F) (D : List Byte) : Keeps (OneIn F D) (PartOf D) (fun _ => True) where
  stable := h.stable D
  bytes := h.bytes D
  rest := h.rest D
  slice e _ n hi := Inv.slice (h.stable D) e hi n
  owned _ := trivial
  truncate _ n hc := hc.truncate n
  split _ _ _ _ hc hs := hc.split hs

theorem PartOf.mono {D D' : List Byte} {c : Cow Byte} (h : PartOf D c) (hd : D <:+: D') : PartOf D' c :=
  h.imp fun _ hx => ⟨hx.1, hx.2.trans hd⟩

/-- Splitting off a sub-parser gives one borrowed chunk again. -/
theorem OneBuf.splitAt (h : OneBuf F) (D : List Byte) (n : Nat) :
    Inv (OneIn F D) (fun c => c.data.buf.offset = 0 ∧ ∃ d, d <:+: D ∧ Cursor.One d c.data.buf) (P.splitAt n : P β (Parser Cursor)) := by
  intro p hp
  refine ⟨(Inv.splitAt (h.stable D) n p hp).1, fun x hx => ?_⟩
  obtain ⟨d, hd, hp⟩ := hp
  obtain ⟨c, h1, h2⟩ := P.bind_res hx
  obtain ⟨cfg, h3, h4⟩ := P.bind_res h2
  cases h4
  obtain ⟨m, h5, h6⟩ := P.bind_res h1
  obtain ⟨cs, h7, h8⟩ := P.bind_res h6
  cases h8
  refine ⟨rfl, ?_⟩
  show ∃ d, d <:+: D ∧ Cursor.One d ⟨cs.reverse, 0, n⟩
  change (P.cursorLoop m n [] p).res = .ok cs at h7
  cases m with
  | zero => cases h7
  | succ m =>
    unfold P.cursorLoop at h7
    by_cases h0 : n = 0
    · rw [if_pos h0] at h7
      cases h7
      exact ⟨[], List.nil_infix, .inl ⟨rfl, rfl⟩⟩
    rw [if_neg h0] at h7
    obtain ⟨c, h8, h9⟩ := P.bind_res h7
    obtain ⟨hne, hcd, ⟨a, ha⟩, hp1⟩ := h.pchunk hp h8
    have hpos := List.length_pos_iff.mpr hne
    have htr : (c.truncate n).loc = .external a ∧ (c.truncate n).data = d.take n := by
      unfold Chunk.truncate
      split
      · exact ⟨ha, by rw [hcd, List.take_of_length_le (by rw [← hcd]; assumption)]⟩
      · exact ⟨ha, by rw [hcd]⟩
    dsimp only at h9
    generalize c.truncate n = c' at *
    obtain ⟨out, h10, h11⟩ := P.bind_res h9
    unfold P.pushChunk at h10 h11
    rw [if_pos (by rw [htr.2, List.length_take]; omega)] at h10 h11
    obtain ⟨cw, h12, h13⟩ := P.bind_res h10
    cases h13
    have hst : F d ((P.toCow c' >>= fun _ => Pure.pure [c'] : P β (List Chunk)) (P.chunk p).st).st.data.buf := by
      unfold P.toCow
      rw [htr.1]
      exact hp1
    obtain ⟨u, h14, h15⟩ := P.bind_res h11
    have hp3 := h.padvance hst h14
    rw [htr.2] at hp3
    rw [htr.2] at h15
    cases m with
    | zero => cases h15
    | succ m =>
      unfold P.cursorLoop at h15
      by_cases hlen : n - (d.take n).length = 0
      · rw [if_pos hlen] at h15
        cases h15
        obtain ⟨l, dat⟩ := c'
        obtain ⟨rfl, rfl⟩ := htr
        exact ⟨d.take n, (List.take_prefix n d).isInfix.trans hd.isInfix,
          .inr ⟨a, _, rfl, by rw [List.length_take]; show 0 < _; omega, rfl⟩⟩
      · rw [if_neg hlen] at h15
        obtain ⟨c2, h16, -⟩ := P.bind_res h15
        rw [List.length_take] at hlen
        exact absurd (List.drop_eq_nil_of_le (by rw [List.length_take]; omega)) (h.pchunk hp3 h16).1

/-- Every byte string in what the visitor is handed, for one borrowed chunk. -/
theorem OneBuf.record (h : OneBuf F) (D : List Byte) (v : Visitor Cow O) {p : Parser β} (hp : F D p.data.buf) {r : O}
    (hr : (P.record v p).res = .ok r) :
    ∃ (a : Record Cow) (md : Metadata), a.All (PartOf D) (fun _ => True) ∧ v.apply a md = .ok r := by
  refine record_all (I := OneIn F D) (G := fun c => c.offset = 0 ∧ ∃ d, d <:+: D ∧ Cursor.One d c) (GS := fun s => s.data <:+: D)
    (h.stable D) (h.splitAt D) ?_ ?_ ?_ ?_ v ⟨D, List.suffix_refl _, hp⟩ hr
  · rintro n p q ⟨-, d, hd, hp⟩ hq
    have := (OneBuf.cursor.splitAt d n p ⟨d, List.suffix_refl _, hp⟩).2 q hq
    exact ⟨this.1, this.2.imp fun x hx => ⟨hx.1.trans hd, hx.2⟩⟩
  · rintro c s ⟨h0, d, hd, hc⟩ hs
    unfold Cursor.asSlice at hs
    split at hs
    · rename_i a x hcs
      cases hs
      rcases hc with ⟨hc, -⟩ | ⟨a', full, hc, -, rfl⟩
      · rw [hcs] at hc; cases hc
      · rw [hcs] at hc
        cases hc
        rw [h0] at hd
        exact hd
    · cases hs
  · rintro p ⟨-, d, hd, hp⟩
    exact ⟨_, _, ⟨d, List.suffix_refl _, hp⟩, OneBuf.cursor.tracking.keeps d, fun c hc => hc.mono hd⟩
  · rintro p hd
    exact ⟨_, _, ⟨_, List.suffix_refl _, rfl⟩, OneBuf.slice.tracking.keeps p.data.buf.buf.data, fun c hc => hc.mono hd⟩

end Perf
