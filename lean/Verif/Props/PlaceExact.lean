import Verif.Props.ErrorExact
/-!
# C104: exactly what it matters where the bytes are

Two inputs with the same bytes, in whatever pieces, borrowed or not, at whatever addresses: when do they give the same results? Two things
matter, and nothing else. One is which stretches of bytes lie in one borrowed piece at an address that is not a multiple of 8, and it matters in
the host's byte order only. The other is which stretches lie in one borrowed piece at all, and it matters for TEXT_POKE records only.
-/
namespace Perf
variable {β γ : Type} [ParseBuf β] [LawfulEof β] [ParseBuf γ] [LawfulEof γ] {F : List Chunk → β → Prop} {G : List Chunk → γ → Prop}
  {cs ds : List Chunk} {p : Parser β} {q : Parser γ} {f g : Flat} {o : Order} {cfg : ParseConfig}

/-- The `n` bytes at offset `i` lie in one borrowed piece, at an address that is not a multiple of 8. -/
def Misplaced (cs : List Chunk) (i n : Nat) : Prop := ∃ a, lie cs i n = some a ∧ a % 8 ≠ 0

/-- The first record is a TEXT_POKE. -/
def Pokes (o : Order) (bs : List Byte) : Prop := e32 o 20 <+: bs

/-- The same bytes, placed alike. -/
structure PlacedAlike (o : Order) (cfg : ParseConfig) (cs ds : List Chunk) : Prop where
  bytes : cs.flatMap Chunk.data = ds.flatMap Chunk.data
  lists : cfg.endian.isNative = true → ∀ i n, Misplaced cs i n ↔ Misplaced ds i n
  pokes : Pokes o (cs.flatMap Chunk.data) → ∀ i n, (lie cs i n).isSome = (lie ds i n).isSome

theorem PlacedAlike.symm (h : PlacedAlike o cfg cs ds) : PlacedAlike o cfg ds cs :=
  ⟨h.bytes.symm, fun hn i n => (h.lists hn i n).symm, fun hp i n => (h.pokes (by rw [h.bytes]; exact hp) i n).symm⟩

theorem PlacedAlike.dropAt (h : PlacedAlike o cfg cs ds) : dropAt cfg.endian.isNative (bodyLie cs) = dropAt cfg.endian.isNative (bodyLie ds) := by
  funext i n
  have h1 := h.lists
  cases hn : cfg.endian.isNative with
  | false => simp only [Perf.dropAt, dropLen, Bool.false_eq_true, false_and, if_false]; split <;> split <;> rfl
  | true =>
    have h1 := h.lists hn (8 + i) n
    unfold Misplaced at h1
    unfold Perf.dropAt bodyLie dropLen
    generalize lie cs (8 + i) n = x at h1
    generalize lie ds (8 + i) n = y at h1
    rcases x with _ | a <;> rcases y with _ | b <;> dsimp only
    · have : b % 8 = 0 := Decidable.byContradiction fun hb => by
        obtain ⟨_, h2, -⟩ := h1.2 ⟨b, rfl, hb⟩
        cases h2
      rw [if_neg (by simp [this])]
    · have : a % 8 = 0 := Decidable.byContradiction fun ha => by
        obtain ⟨_, h2, -⟩ := h1.1 ⟨a, rfl, ha⟩
        cases h2
      rw [if_neg (by simp [this])]
    · by_cases ha : a % 8 = 0
      · by_cases hb : b % 8 = 0
        · rw [if_neg (by simp [ha]), if_neg (by simp [hb])]
        · obtain ⟨_, h2, h3⟩ := h1.2 ⟨b, rfl, hb⟩
          cases h2
          exact absurd ha h3
      · obtain ⟨_, h2, h3⟩ := h1.1 ⟨a, rfl, ha⟩
        cases h2
        rw [if_pos ⟨rfl, ha⟩, if_pos ⟨rfl, h3⟩]

theorem KSample.Strewn.alike {native : Bool} {st rf ru ri : U64} {hwIndex : Bool} {w w' : Nat → Nat → Option Nat} {d : Dropped} {extra : List Byte}
    {s : KSample} (hw : Perf.dropAt native w = Perf.dropAt native w') (h : s.Strewn native o st rf ru ri hwIndex w d extra) :
    s.Strewn native o st rf ru ri hwIndex w' d extra :=
  { h with
    dropValues := by rw [← hw]; exact h.dropValues
    dropCallchain := by rw [← hw]; exact h.dropCallchain
    dropLbr := by rw [← hw]; exact h.dropLbr
    dropRegsUser := by rw [← hw]; exact h.dropRegsUser
    dropRegsIntr := by rw [← hw]; exact h.dropRegsIntr }

theorem KBody.Strewn.alike {misc : U16} {w w' : Nat → Nat → Option Nat} {d : Dropped} {extra : List Byte} {b : KBody}
    (hw : Perf.dropAt cfg.endian.isNative w = Perf.dropAt cfg.endian.isNative w') (h : b.Strewn o cfg misc w d extra) : b.Strewn o cfg misc w' d extra := by
  cases b
  case sample s => exact KSample.Strewn.alike hw h
  case namespaces => exact ⟨by rw [← hw]; exact h.1, h.2⟩
  all_goals exact h

theorem PlacedAlike.strewn (h : PlacedAlike o cfg cs ds) {r : KRecord} {d : Dropped} {extra : List Byte} (hr : r.StrewnFrom o cfg cs d extra) :
    r.StrewnFrom o cfg ds d extra :=
  ⟨hr.strewn.alike h.dropAt, hr.small, hr.toEnd, by rw [← h.bytes]; exact hr.bytes⟩

theorem PlacedAlike.value (h : PlacedAlike o cfg cs ds) {r : KRecord} {d : Dropped} {extra : List Byte} (hr : r.StrewnFrom o cfg cs d extra) :
    r.body.valueStrewn cfg r.misc (bodyLie cs) = r.body.valueStrewn cfg r.misc (bodyLie ds) := by
  have hw : r.body.whole (bodyLie cs) = r.body.whole (bodyLie ds) := by
    have hb := hr.bytes
    unfold KRecord.encHeld at hb
    generalize r.body = b at hb
    cases b
    case textPoke addr old new pad =>
      refine h.pokes ?_ _ _
      refine List.IsPrefix.trans ?_ hb
      simp only [List.append_assoc]
      exact List.prefix_append _ _
    all_goals rfl
  unfold KBody.valueStrewn
  rw [hw]

theorem PlacedAlike.wrong (h : PlacedAlike o cfg cs ds) {e : ParseError} (hr : RecordWrong o cfg cs e) : RecordWrong o cfg ds e := by
  cases hr with
  | size type misc size tl h1 h2 => exact .size type misc size tl (by rw [← h.bytes]; exact h1) h2
  | trailer type misc size tl h1 h2 h3 h4 => exact .trailer type misc size tl (by rw [← h.bytes]; exact h1) h2 h3 h4
  | body type misc size body trailer tl e h1 h2 h3 h4 =>
    refine .body type misc size body trailer tl e (by rw [← h.bytes]; exact h1) h2 h3 ?_
    generalize type.toNat = t at h4
    cases h4 with
    | readGroup pid tid tl a => exact .readGroup pid tid tl a
    | readFlags pid tid tl a b => exact .readFlags pid tid tl a b
    | sample b s d rest e a1 a2 a3 => exact .sample b s d rest e a1 (a2.alike h.dropAt) a3
    | buildId pid tid addr len pgoff size r1 r2 id tl a1 a2 a3 => exact .buildId pid tid addr len pgoff size r1 r2 id tl a1 a2 a3
    | namespaces pid tid nr tl a1 a2 => exact .namespaces pid tid nr tl a1 a2

theorem PlacedAlike.outcome (h : PlacedAlike o cfg cs ds) {x : Except Fault (Record List × Metadata)} (hx : Outcome o cfg cs x) : Outcome o cfg ds x := by
  rcases x with (e | _ | _) | y
  · rcases hx with hx | ⟨he, h1, h2⟩
    · exact .inl (h.wrong hx)
    · exact .inr ⟨he, fun r d extra h' => h1 r d extra (h.symm.strewn h'), fun e' h' => h2 e' (h.symm.wrong h')⟩
  · exact hx
  · exact hx
  · obtain ⟨r, d, extra, h1, h2⟩ := hx
    exact ⟨r, d, extra, h.strewn h1, by rw [h2, h.value h1]⟩

/-- **C104** Bytes that are placed alike give the same result, value or error, whatever the two buffers are. -/
theorem c104_record (hF : SewnBuf F) (hG : SewnBuf G) (hp : Lies F cs p f) (hq : Lies G ds q g) (hc : f.cfg = g.cfg) (hs : Src f.cfg o)
    (h : PlacedAlike o f.cfg cs ds) : seenAs (P.record pairVisitor p).res = seenAs (P.record pairVisitor q).res := by
  refine ((c100_exact hG hq (hc ▸ hs) _).2 ?_).symm
  rw [← hc]
  exact h.outcome (hp.outcome hF hs)

/-! ## Loops -/

theorem Misplaced.drop {m i n : Nat} : Misplaced (dropPieces cs m) i n ↔ Misplaced cs (m + i) n := by
  unfold Misplaced
  rw [lie_drop]

theorem pokes_block {bs : List Byte} (h : Pokes o bs) : ∃ b ∈ cut cfg bs, Pokes o b := by
  have hl : 4 ≤ bs.length := by
    have := h.length_le
    rw [e32_length] at this
    exact this
  have hne : bs ≠ [] := fun h => by rw [h] at hl; exact absurd hl (by decide)
  rw [cut_cons cfg hne]
  refine ⟨_, List.mem_cons_self, List.prefix_of_prefix_length_le h (List.take_prefix _ _) ?_⟩
  rw [e32_length, List.length_take]
  unfold firstLen
  omega

/-- **C104** And so do any number of calls in a row. How the bytes of TEXT_POKE records are placed matters only if there is one. -/
theorem c104_loop (hF : SewnBuf F) (hG : SewnBuf G) (hp : Lies F cs p f) (hq : Lies G ds q g) (hc : f.cfg = g.cfg) (hs : Src f.cfg o)
    (hb : cs.flatMap Chunk.data = ds.flatMap Chunk.data) (hl : f.cfg.endian.isNative = true → ∀ i n, Misplaced cs i n ↔ Misplaced ds i n)
    (hk : (∃ b ∈ cut f.cfg (cs.flatMap Chunk.data), Pokes o b) → ∀ i n, (lie cs i n).isSome = (lie ds i n).isSome) (k : Nat) :
    (visitMany pairVisitor k p).1.map seenAs = (visitMany pairVisitor k q).1.map seenAs := by
  induction k generalizing p q f g cs ds with
  | zero => rfl
  | succ k ih =>
    have h1 := c104_record hF hG hp hq hc hs ⟨hb, hl, fun h => hk (pokes_block h)⟩
    have hlen : firstLen f.cfg f.s.bytes = firstLen g.cfg g.s.bytes := by rw [hc, hp.bytes, hq.bytes, hb]
    have a1 := hp.after hF pairVisitor
    have a2 := hq.after hG pairVisitor
    rw [← hlen] at a2
    have hdata : ∀ cs : List Chunk, (dropPieces cs (firstLen f.cfg f.s.bytes)).flatMap Chunk.data = (cs.flatMap Chunk.data).drop (firstLen f.cfg f.s.bytes) :=
      fun cs => by rw [← chunksData_flatMap, ← chunksData_flatMap, dropPieces_data]
    have h2 := ih a1 a2 hc hs (by rw [hdata, hdata, hb]) (fun hn i n => by rw [Misplaced.drop, Misplaced.drop]; exact hl hn _ _)
      (fun ⟨b, hb1, hb2⟩ i n => by
        rw [lie_drop, lie_drop]
        refine hk ⟨b, ?_, hb2⟩ _ _
        rw [hdata] at hb1
        by_cases hne : cs.flatMap Chunk.data = []
        · rw [hne, List.drop_nil] at hb1
          rw [hne]
          exact hb1
        · rw [cut_cons _ hne, ← hp.bytes]
          rw [← hp.bytes] at hb1
          exact List.mem_cons_of_mem _ hb1)
    show seenAs _ :: _ = seenAs _ :: _
    rw [h1, h2]

/-! ## Moving pieces -/

/-- The pieces, moved to other addresses. -/
inductive Moved (d : Nat) : List Slice → List Slice → Prop
  | nil : Moved d [] []
  | cons {s t : Slice} {ss ts : List Slice} : s.data = t.data → s.addr % d = t.addr % d → Moved d ss ts → Moved d (s :: ss) (t :: ts)

theorem Moved.data {d : Nat} {ss ts : List Slice} (h : Moved d ss ts) :
    (ChunkBuf.mk ss).chunks.flatMap Chunk.data = (ChunkBuf.mk ts).chunks.flatMap Chunk.data := by
  induction h with
  | nil => rfl
  | cons h1 _ _ ih =>
    show Slice.data _ ++ (ChunkBuf.mk _).chunks.flatMap Chunk.data = Slice.data _ ++ (ChunkBuf.mk _).chunks.flatMap Chunk.data
    rw [h1, ih]

theorem Moved.lie {d : Nat} {ss ts : List Slice} (h : Moved d ss ts) (i n : Nat) :
    match lie (ChunkBuf.mk ss).chunks i n, lie (ChunkBuf.mk ts).chunks i n with
    | none, none => True
    | some a, some b => a % d = b % d
    | _, _ => False := by
  induction h generalizing i with
  | nil => trivial
  | @cons s t ss ts h1 h2 _ ih =>
    show match Perf.lie (⟨.external s.addr, s.data⟩ :: (ChunkBuf.mk ss).chunks) i n, Perf.lie (⟨.external t.addr, t.data⟩ :: (ChunkBuf.mk ts).chunks) i n with
      | none, none => True
      | some a, some b => a % d = b % d
      | _, _ => False
    unfold Perf.lie
    dsimp only
    rw [← h1]
    by_cases hi : i < s.data.length
    · rw [if_pos hi, if_pos hi]
      by_cases hn : i + n ≤ s.data.length
      · rw [if_pos hn, if_pos hn]
        show (s.addr + i) % d = (t.addr + i) % d
        rw [Nat.add_mod, h2, ← Nat.add_mod]
      · rw [if_neg hn, if_neg hn]
        trivial
    · rw [if_neg hi, if_neg hi]
      exact ih _

theorem Moved.nonempty {d : Nat} {ss ts : List Slice} (h : Moved d ss ts) (hs : ∀ s ∈ ss, s.data ≠ []) : ∀ t ∈ ts, t.data ≠ [] := by
  induction h with
  | nil => exact fun _ h => by cases h
  | cons h1 _ _ ih =>
    intro u hu
    rcases List.mem_cons.1 hu with rfl | hu
    · rw [← h1]; exact hs _ List.mem_cons_self
    · exact ih (fun s h => hs s (List.mem_cons_of_mem _ h)) u hu

/-- **C104** Of the addresses of the pieces of a ring buffer, only the remainder modulo 8 matters, and in the other byte order not even that. -/
theorem c104_moved {d : Nat} {ss ts : List Slice} (h : Moved d ss ts) (hs : ∀ s ∈ ss, s.data ≠ []) (hw : cfg.Wf) (ho : Src cfg o)
    (hd : cfg.endian.isNative = true → 8 ∣ d) (k : Nat) :
    (visitMany pairVisitor k (Parser.new (⟨ss⟩ : ChunkBuf) cfg)).1.map seenAs = (visitMany pairVisitor k (Parser.new (⟨ts⟩ : ChunkBuf) cfg)).1.map seenAs := by
  refine c104_loop SewnBuf.chunkBuf SewnBuf.chunkBuf (Lies.chunkBuf ss hs hw) (Lies.chunkBuf ts (h.nonempty hs) hw) rfl ho h.data ?_ ?_ k
  · intro hn i n
    have h1 := h.lie i n
    unfold Misplaced
    generalize Perf.lie (ChunkBuf.mk ss).chunks i n = x at h1
    generalize Perf.lie (ChunkBuf.mk ts).chunks i n = y at h1
    rcases x with _ | a <;> rcases y with _ | b
    · exact Iff.rfl
    · exact h1.elim
    · exact h1.elim
    · have h2 : a % 8 = b % 8 := by
        rw [← Nat.mod_mod_of_dvd a (hd hn), ← Nat.mod_mod_of_dvd b (hd hn)]
        exact congrArg (· % 8) h1
      constructor <;> rintro ⟨_, h3, h4⟩ <;> cases h3
      · exact ⟨b, rfl, h2 ▸ h4⟩
      · exact ⟨a, rfl, h2 ▸ h4⟩
  · intro _ i n
    have h1 := h.lie i n
    generalize Perf.lie (ChunkBuf.mk ss).chunks i n = x at h1
    generalize Perf.lie (ChunkBuf.mk ts).chunks i n = y at h1
    rcases x with _ | a <;> rcases y with _ | b
    · rfl
    · exact h1.elim
    · exact h1.elim
    · rfl

/-- **C104** Without TEXT_POKE records, and without lists that could be misplaced, a ring buffer gives what a reader of the same bytes gives. -/
theorem c104_reader {ss : List Slice} (hs : ∀ s ∈ ss, s.data ≠ []) (es : List ReadEvent) (he : Settles es) (hf : (scriptFin es).kind = .eof)
    (hb : scriptBytes es = piecesData ss) (hw : cfg.Wf) (ho : Src cfg o)
    (hl : cfg.endian.isNative = true → ∀ i n, ¬ Misplaced (ChunkBuf.mk ss).chunks i n)
    (hk : ∀ b ∈ cut cfg (piecesData ss), ¬ Pokes o b) (k : Nat) :
    (visitMany pairVisitor k (Parser.new (⟨ss⟩ : ChunkBuf) cfg)).1.map seenAs = (visitMany pairVisitor k (Parser.new (⟨[], es⟩ : BufReader) cfg)).1.map seenAs := by
  have h1 := @c86_loops_temporary _ BufReader _ BufReader.settled LentBuf _ _ pairVisitor k _ _
    (.through (scriptBytes es) (scriptFin es) cfg) _ (RepP.settled he hw) (Lies.lentBuf (scriptBytes es) hw).rep rfl rfl ⟨rfl, settled_eof he hf, rfl⟩ hf
  rw [h1]
  have hl1 := Lies.chunkBuf ss hs hw
  have hl2 := Lies.lentBuf (scriptBytes es) hw
  have e1 : (ChunkBuf.mk ss).chunks.flatMap Chunk.data = piecesData ss := hl1.bytes.symm
  have e2 : (lentPieces (scriptBytes es)).flatMap Chunk.data = scriptBytes es := hl2.bytes.symm
  refine c104_loop SewnBuf.chunkBuf SewnBuf.lentBuf hl1 hl2 rfl ho (by rw [e1, e2, hb]) ?_ ?_ k
  · intro hn i n
    refine ⟨fun h => absurd h (hl hn i n), ?_⟩
    rintro ⟨a, ha, -⟩
    unfold lentPieces at ha
    split at ha
    · cases ha
    · unfold lie at ha
      split at ha
      · cases ha
      · cases ha
  · rintro ⟨b, h2, h3⟩
    rw [e1] at h2
    exact absurd h3 (hk b h2)

/-! ## Concrete cases -/

/-- A NAMESPACES record with one entry, and a TEXT_POKE without old code, both for a host of the given byte order. -/
def demoPlaced (o : Order) : List Byte :=
  e32 o 16 ++ e16 o 0 ++ e16 o 40 ++ e32 o 5 ++ e32 o 6 ++ e64 o 1 ++ e64 o 7 ++ e64 o 8 ++
  (e32 o 20 ++ e16 o 0 ++ e16 o 24 ++ e64 o 9 ++ e16 o 0 ++ e16 o 4 ++ [4, 5, 6, 7])

def demoPlacedSeen (x : Except Fault (Record List × Metadata)) : Option (List Byte) := match x with
  | .ok (.namespaces n, _) => some [BitVec.ofNat 8 n.namespaces.length]
  | .ok (.textPoke t, _) => some t.newBytes
  | _ => none

def demoPlacedCfg (o : Order) : ParseConfig := .default (.dynamic o .little) .little

/-- The demo in two pieces, cut behind `n` bytes, at the addresses `a` and `b`. -/
def demoPlacedRun (o : Order) (n a b : Nat) : List (Option (List Byte)) :=
  (visitMany pairVisitor 2 (Parser.new (⟨[⟨a, (demoPlaced o).take n⟩, ⟨b, (demoPlaced o).drop n⟩]⟩ : ChunkBuf) (demoPlacedCfg o))).1.map
    fun x => demoPlacedSeen (seenAs x)

/-- Addresses matter modulo 8 in the host's order, and not at all in the other one; where the pieces end matters for both records. -/
theorem c104_example :
    demoPlacedRun .little 40 8 8 = [some [1], some [4, 5, 6, 7]] ∧
    demoPlacedRun .little 40 800 9 = [some [1], some [4, 5, 6, 7]] ∧
    demoPlacedRun .little 40 4 8 = [none, some [4, 5, 6, 7]] ∧
    demoPlacedRun .little 40 12 8 = [none, some [4, 5, 6, 7]] ∧
    demoPlacedRun .little 30 4 8 = [some [1], some [4, 5, 6, 7]] ∧
    demoPlacedRun .little 62 8 8 = [some [1], some []] ∧
    demoPlacedRun .big 40 8 8 = [some [1], some [4, 5, 6, 7]] ∧
    demoPlacedRun .big 40 5 1 = [some [1], some [4, 5, 6, 7]] ∧
    demoPlacedRun .big 62 5 1 = [some [1], some []] := by decide +kernel

/-- The hypotheses of `c104_moved` hold in such cases. -/
theorem demoPlaced_moved : Moved 8 [⟨4, (demoPlaced .little).take 40⟩, ⟨8, (demoPlaced .little).drop 40⟩]
    [⟨12, (demoPlaced .little).take 40⟩, ⟨800, (demoPlaced .little).drop 40⟩] := .cons rfl rfl (.cons rfl rfl .nil)

end Perf
