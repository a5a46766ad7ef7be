import Verif.Props.AttrExact
import Verif.Props.Loop
/-!
# C99: exactly what a loop over any input returns, call by call, also when some of it is damaged

A loop that goes on after errors. The input is cut into blocks by the sizes in the headers (C73); each call returns a record if and only if
its block is a record of the layout of C97 (in pieces of memory) or C95 (through a reader), whatever the other blocks are.
-/
namespace Perf
variable {β : Type} [ParseBuf β] [LawfulEof β] {F : List Chunk → β → Prop} {cs : List Chunk} {p : Parser β} {f : Flat} {o : Order} {cfg : ParseConfig}
  {O : Type}

/-- Where any call leaves the parser. -/
theorem Lies.after (hF : SewnBuf F) (hp : Lies F cs p f) (v : Visitor Cow O) :
    Lies F (dropPieces cs (firstLen f.cfg f.s.bytes)) (P.record v p).st (f.adv (firstLen f.cfg f.s.bytes)) := by
  have h1 := c67_record hp.rep (by rw [hp.fin]; rfl) v
  rw [recordEnd_eq] at h1
  refine hp.adv h1 ((Inv.record (hF.stable cs f.off) v p ⟨Nat.le_of_eq hp.rep.off.symm, ?_⟩).1)
  rw [hp.rep.off, Nat.sub_self, dropPieces_zero (hF.nonempty _ _ hp.sewn)]
  exact hp.sewn

/-- A record that is taken is a whole block. -/
theorem Lies.block (hF : SewnBuf F) (hp : Lies F cs p f) (hs : Src f.cfg o) {r : KRecord} {d : Dropped} {extra : List Byte}
    (h : r.StrewnFrom o f.cfg cs d extra) : f.s.bytes.take (firstLen f.cfg f.s.bytes) = r.encHeld o f.cfg d extra := by
  have h1 := (hp.returned hF hs h).2.rep.off
  rw [(hp.after hF pairVisitor).rep.off] at h1
  have h1 : f.off + firstLen f.cfg f.s.bytes = f.off + (r.encHeld o f.cfg d extra).length := h1
  obtain ⟨tl, hb⟩ := h.bytes
  rw [Nat.add_left_cancel h1, hp.bytes, ← hb, List.take_left]

/-- The calls return these results, one for each block: a value if and only if the block is a record that is taken and this is its contents. -/
def StrewnBlocks (o : Order) (cfg : ParseConfig) : List Chunk → List (List Byte) → List (Except Fault (Record List × Metadata)) → Prop
  | _, [], xs => xs = []
  | cs, b :: bs, xs => ∃ x xs', xs = x :: xs' ∧
      (∀ y, x = .ok y ↔ ∃ (r : KRecord) (d : Dropped) (extra : List Byte), r.StrewnFrom o cfg cs d extra ∧ r.encHeld o cfg d extra = b ∧
        y = (r.body.valueStrewn cfg r.misc (bodyLie cs), r.metadata cfg)) ∧
      StrewnBlocks o cfg (dropPieces cs b.length) bs xs'

theorem seenAs_ok {x : Except Fault (Record Cow × Metadata)} {y : Record List × Metadata} :
    seenAs x = .ok y ↔ ∃ a : Record Cow, x = .ok (a, y.2) ∧ a.view = y.1 := by
  constructor
  · intro h
    rcases x with e | ⟨a, md⟩
    · cases h
    · have h := Except.ok.inj h
      subst h
      exact ⟨a, rfl, rfl⟩
  · rintro ⟨a, rfl, h⟩
    unfold seenAs
    rcases y with ⟨y, md⟩
    dsimp only at h
    subst h
    rfl

theorem firstLen_le (cfg : ParseConfig) (bs : List Byte) : firstLen cfg bs ≤ bs.length := Nat.min_le_right _ _

/-- **C99** A loop over any input in any pieces: as many calls as there are blocks, each of which returns a value exactly if its block is a record
that is taken. Then everything has been consumed. -/
theorem c99_loop (hF : SewnBuf F) (hp : Lies F cs p f) (hs : Src f.cfg o) :
    StrewnBlocks o f.cfg cs (cut f.cfg f.s.bytes) ((visitMany pairVisitor (cut f.cfg f.s.bytes).length p).1.map seenAs) ∧
    Lies F [] (visitMany pairVisitor (cut f.cfg f.s.bytes).length p).2 (f.adv f.s.bytes.length) := by
  generalize hn : f.s.bytes.length = n
  induction n using Nat.strongRecOn generalizing p f cs with
  | _ n ih =>
    by_cases h : f.s.bytes = []
    · rw [h] at hn ⊢
      rw [cut_nil]
      refine ⟨rfl, ?_⟩
      show Lies F [] p (f.adv n)
      rw [← hn, List.length_nil, Flat.adv_zero]
      have hcs : cs = [] := by
        rcases cs with _ | ⟨c, cs⟩
        · rfl
        · have h1 := hp.bytes
          rw [h, List.flatMap_cons] at h1
          exact absurd (List.append_eq_nil_iff.1 h1.symm).1 (hF.nonempty _ _ hp.sewn c (by simp))
      rw [← hcs]
      exact hp
    · have hpos := firstLen_pos (cfg := f.cfg) h
      have hle := firstLen_le f.cfg f.s.bytes
      have hst := hp.after hF pairVisitor
      obtain ⟨i1, i2⟩ := ih (n - firstLen f.cfg f.s.bytes) (by omega) hst hs (by rw [Flat.adv_bytes, List.length_drop, hn])
      rw [Flat.adv_bytes, Flat.adv_cfg] at i1 i2
      rw [cut_cons f.cfg h]
      have hlen : (f.s.bytes.take (firstLen f.cfg f.s.bytes)).length = firstLen f.cfg f.s.bytes := by rw [List.length_take]; omega
      refine ⟨⟨seenAs (P.record pairVisitor p).res, _, rfl, fun y => ?_, ?_⟩, ?_⟩
      · rw [seenAs_ok, c97_exact hF hp hs]
        constructor
        · rintro ⟨r, d, extra, h1, h2, h3⟩
          exact ⟨r, d, extra, h1, (hp.block hF hs h1).symm, Prod.ext h2 h3⟩
        · rintro ⟨r, d, extra, h1, -, rfl⟩
          exact ⟨r, d, extra, h1, rfl, rfl⟩
      · rw [hlen]
        exact i1
      · show Lies F [] (visitMany pairVisitor _ (P.record pairVisitor p).st).2 _
        rw [Flat.adv_adv, show firstLen f.cfg f.s.bytes + (n - firstLen f.cfg f.s.bytes) = n by omega] at i2
        exact i2

/-- **C99** The results are determined up to the choice of the error. -/
theorem c99_determined {bs : List (List Byte)} {xs ys : List (Except Fault (Record List × Metadata))} (h : StrewnBlocks o cfg cs bs xs)
    (h' : StrewnBlocks o cfg cs bs ys) : xs.map Except.toOption = ys.map Except.toOption := by
  induction bs generalizing cs xs ys with
  | nil => rw [show xs = [] from h, show ys = [] from h']
  | cons b bs ih =>
    obtain ⟨x, xs', rfl, h1, h2⟩ := h
    obtain ⟨y, ys', rfl, h3, h4⟩ := h'
    rw [List.map_cons, List.map_cons, ih h2 h4]
    congr 1
    rcases x with e | x
    · rcases y with e' | y
      · rfl
      · cases (h1 y).2 ((h3 y).1 rfl)
    · rw [(h3 x).2 ((h1 x).1 rfl)]

/-- **C99** For a ring buffer, or any other input in slices that are not empty, at any addresses. -/
theorem c99_pieces (ps : List Slice) (h : ∀ s ∈ ps, s.data ≠ []) (hw : cfg.Wf) (hs : Src cfg o) :
    StrewnBlocks o cfg (ps.map fun s => ⟨.external s.addr, s.data⟩) (cut cfg (piecesData ps))
      ((visitMany pairVisitor (cut cfg (piecesData ps)).length (Parser.new (⟨ps⟩ : ChunkBuf) cfg)).1.map seenAs) :=
  (c99_loop SewnBuf.chunkBuf (Lies.chunkBuf ps h hw) hs).1

/-! ## Through a reader -/

/-- The same for bytes that come through a reader. What comes before and after a block does not matter. -/
def TakenBlock (o : Order) (cfg : ParseConfig) (b : List Byte) (x : Except Fault (Record List × Metadata)) : Prop :=
  ∀ y, x = .ok y ↔ ∃ (r : KRecord) (extra : List Byte), r.TakenFrom o cfg extra b ∧ r.encTaken o cfg extra = b ∧
    y = (r.body.valueTaken cfg r.misc, r.metadata cfg)

/-- The results, one for each block. -/
def TakenBlocks (o : Order) (cfg : ParseConfig) : List (List Byte) → List (Except Fault (Record List × Metadata)) → Prop
  | [], xs => xs = []
  | b :: bs, xs => ∃ x xs', xs = x :: xs' ∧ TakenBlock o cfg b x ∧ TakenBlocks o cfg bs xs'

theorem KRecord.TakenFrom.own {r : KRecord} {extra bs : List Byte} (h : r.TakenFrom o cfg extra bs) {b : List Byte}
    (hb : r.encTaken o cfg extra <+: b) : r.TakenFrom o cfg extra b := ⟨h.taken, h.small, h.toEnd, hb⟩

theorem RepP.taken_state (hp : RepP p f) (ht : f.s.al = .temp) (hs : Src f.cfg o) {r : KRecord} {extra : List Byte}
    (h : r.TakenFrom o f.cfg extra f.s.bytes) : RepP (P.record pairVisitor p).st (f.adv (r.encTaken o f.cfg extra).length) := by
  obtain ⟨b, h4, _⟩ := pairVisitor_taken (KBody.copy_view (cfg := f.cfg) r.body r.misc)
  refine (c86_temporary hp ht pairVisitor).2 (b, r.metadata f.cfg) _ ?_
  rw [Piped.record_taken hs pairVisitor h, h4]
  rfl

/-- **C99** A loop over any input that comes through a reader: each call returns a value exactly if its block, alone, is a record that is taken. -/
theorem c99_through (hp : RepP p f) (ht : f.s.al = .temp) (hf : f.s.fin.kind = .eof) (hs : Src f.cfg o) :
    TakenBlocks o f.cfg (cut f.cfg f.s.bytes) ((visitMany pairVisitor (cut f.cfg f.s.bytes).length p).1.map seenAs) := by
  generalize hn : f.s.bytes.length = n
  induction n using Nat.strongRecOn generalizing p f with
  | _ n ih =>
    by_cases h : f.s.bytes = []
    · rw [h, cut_nil]
      rfl
    · have hpos := firstLen_pos (cfg := f.cfg) h
      have hle := firstLen_le f.cfg f.s.bytes
      have hst := c67_record hp hf pairVisitor
      rw [recordEnd_eq] at hst
      have i1 := ih (n - firstLen f.cfg f.s.bytes) (by omega) hst (by rw [Flat.adv_al, ht]; rfl) hf hs (by rw [Flat.adv_bytes, List.length_drop, hn])
      rw [Flat.adv_bytes, Flat.adv_cfg] at i1
      rw [cut_cons f.cfg h]
      refine ⟨seenAs (P.record pairVisitor p).res, _, rfl, fun y => ?_, i1⟩
      rw [seenAs_ok, c95_exact hp ht hs]
      constructor
      · rintro ⟨r, extra, h1, h2, h3⟩
        have h4 := (hp.taken_state ht hs h1).off
        rw [hst.off] at h4
        have h4 : f.off + firstLen f.cfg f.s.bytes = f.off + (r.encTaken o f.cfg extra).length := h4
        have h5 : r.encTaken o f.cfg extra = f.s.bytes.take (firstLen f.cfg f.s.bytes) := by
          obtain ⟨tl, hb⟩ := h1.bytes
          rw [Nat.add_left_cancel h4, ← hb, List.take_left]
        exact ⟨r, extra, h1.own (h5 ▸ List.prefix_refl _), h5, Prod.ext h2 h3⟩
      · rintro ⟨r, extra, h1, h2, rfl⟩
        exact ⟨r, extra, h1.own (h2 ▸ List.take_prefix _ _), rfl, rfl⟩

/-- **C99** For a reader that ends for good, whatever the portions. -/
theorem c99_reader (es : List ReadEvent) (he : Settles es) (hw : cfg.Wf) (hs : Src cfg o) (hf : (scriptFin es).kind = .eof) :
    TakenBlocks o cfg (cut cfg (scriptBytes es))
      ((visitMany pairVisitor (cut cfg (scriptBytes es)).length (Parser.new (⟨[], es⟩ : BufReader) cfg)).1.map seenAs) :=
  @c99_through BufReader _ BufReader.settled _ (.through (scriptBytes es) (scriptFin es) cfg) o (RepP.settled he hw) rfl hf hs

/-! ## Damaged recordings -/

/-- Blocks whose headers give their lengths are cut apart again. -/
theorem cut_framed (cfg : ParseConfig) : ∀ {bss : List (List Byte)}, (∀ b ∈ bss, 8 ≤ b.length ∧ sizeField cfg b = b.length) →
    cut cfg bss.flatten = bss
  | [], _ => rfl
  | b :: bss, h => by
    obtain ⟨h8, hl⟩ := h b (by simp)
    have hs : sizeField cfg (b ++ bss.flatten) = b.length := by
      rw [← hl]
      unfold sizeField
      rw [List.drop_append_of_le_length (by omega), List.take_append_of_le_length (by rw [List.length_drop]; omega)]
    have hf : firstLen cfg (b ++ bss.flatten) = b.length := by
      unfold firstLen
      rw [hs, List.length_append]
      omega
    rw [List.flatten_cons, cut_cons cfg (by intro h0; rw [(List.append_eq_nil_iff.1 h0).1] at h8; simp at h8), hf, List.take_left, List.drop_left,
      cut_framed cfg fun c hc => h c (by simp [hc])]

theorem TakenBlocks.get {bs : List (List Byte)} {xs : List (Except Fault (Record List × Metadata))} (h : TakenBlocks o cfg bs xs) :
    xs.length = bs.length ∧ ∀ (i : Nat) (b : List Byte), bs[i]? = some b → ∃ x, xs[i]? = some x ∧ TakenBlock o cfg b x := by
  induction bs generalizing xs with
  | nil => rw [show xs = [] from h]; exact ⟨rfl, fun i b hb => by simp at hb⟩
  | cons b bs ih =>
    obtain ⟨x, xs', rfl, h1, h2⟩ := h
    obtain ⟨i1, i2⟩ := ih h2
    refine ⟨by rw [List.length_cons, List.length_cons, i1], fun i c hc => ?_⟩
    cases i with
    | zero => exact ⟨x, rfl, by rw [List.getElem?_cons_zero] at hc; cases hc; exact h1⟩
    | succ i => exact i2 i c hc

/-- **C99** A recording some of whose records are damaged, apart from the size in their headers: a record that is not is returned, at its place,
whatever the others are. -/
theorem c99_damaged (bss : List (List Byte)) (hb : ∀ b ∈ bss, 8 ≤ b.length ∧ sizeField cfg b = b.length) (es : List ReadEvent)
    (he : scriptBytes es = bss.flatten) (hes : Settles es) (hf : (scriptFin es).kind = .eof) (hw : cfg.Wf) (hs : Src cfg o) (i : Nat) (r : KRecord) (extra : List Byte)
    (hr : bss[i]? = some (r.encTaken o cfg extra)) (ht : r.body.Taken o cfg r.misc extra) (hend : r.body.toEnd = true → extra = []) :
    ((visitMany pairVisitor bss.length (Parser.new (⟨[], es⟩ : BufReader) cfg)).1.map seenAs)[i]? =
      some (.ok (r.body.valueTaken cfg r.misc, r.metadata cfg)) := by
  have h := c99_reader es hes hw hs hf
  rw [he, cut_framed cfg hb] at h
  obtain ⟨x, hx, hx'⟩ := h.get.2 i _ hr
  rw [hx]
  congr 1
  refine (hx' _).2 ⟨r, extra, ⟨ht, ?_, hend, List.prefix_refl _⟩, rfl, rfl⟩
  have h1 := (hb _ (List.mem_of_getElem? hr)).2
  have h2 : sizeField cfg (r.encTaken o cfg extra) < 65536 := BitVec.isLt _
  rw [h1, KRecord.encTaken_length] at h2
  exact h2

theorem StrewnBlocks.get {bs : List (List Byte)} {xs : List (Except Fault (Record List × Metadata))} (hne : ∀ c ∈ cs, c.data ≠ [])
    (h : StrewnBlocks o cfg cs bs xs) : xs.length = bs.length ∧ ∀ (i : Nat) (b : List Byte), bs[i]? = some b → ∃ x, xs[i]? = some x ∧
      ∀ y, x = .ok y ↔ ∃ (r : KRecord) (d : Dropped) (extra : List Byte), r.StrewnFrom o cfg (dropPieces cs (bs.take i).flatten.length) d extra ∧
        r.encHeld o cfg d extra = b ∧ y = (r.body.valueStrewn cfg r.misc (bodyLie (dropPieces cs (bs.take i).flatten.length)), r.metadata cfg) := by
  induction bs generalizing xs cs with
  | nil => rw [show xs = [] from h]; exact ⟨rfl, fun i b hb => by simp at hb⟩
  | cons b bs ih =>
    obtain ⟨x, xs', rfl, h1, h2⟩ := h
    obtain ⟨i1, i2⟩ := ih (dropPieces_mem hne) h2
    refine ⟨by rw [List.length_cons, List.length_cons, i1], fun i c hc => ?_⟩
    cases i with
    | zero =>
      refine ⟨x, rfl, ?_⟩
      rw [List.getElem?_cons_zero] at hc
      cases hc
      rw [List.take_zero, List.flatten_nil, List.length_nil, dropPieces_zero hne]
      exact h1
    | succ i =>
      have h3 := i2 i c hc
      rw [dropPieces_add] at h3
      rw [List.take_succ_cons, List.flatten_cons, List.length_append]
      exact h3

/-- **C99** The same in pieces of memory. Whether a block is a record depends on how it lies in the pieces, and on nothing else. -/
theorem c99_damaged_pieces (bss : List (List Byte)) (hb : ∀ b ∈ bss, 8 ≤ b.length ∧ sizeField cfg b = b.length) (ps : List Slice)
    (h : ∀ s ∈ ps, s.data ≠ []) (he : piecesData ps = bss.flatten) (hw : cfg.Wf) (hs : Src cfg o) (i : Nat) (hi : i < bss.length)
    (y : Record List × Metadata) :
    ((visitMany pairVisitor bss.length (Parser.new (⟨ps⟩ : ChunkBuf) cfg)).1.map seenAs)[i]? = some (.ok y) ↔
    ∃ (r : KRecord) (d : Dropped) (extra : List Byte),
      r.StrewnFrom o cfg (dropPieces (ps.map fun s => ⟨.external s.addr, s.data⟩) (bss.take i).flatten.length) d extra ∧
      r.encHeld o cfg d extra = bss[i] ∧
      y = (r.body.valueStrewn cfg r.misc (bodyLie (dropPieces (ps.map fun s => ⟨.external s.addr, s.data⟩) (bss.take i).flatten.length)),
        r.metadata cfg) := by
  have h1 := c99_pieces ps h hw hs
  rw [he, cut_framed cfg hb] at h1
  obtain ⟨x, hx, hx'⟩ := (h1.get (by
    intro c hc
    obtain ⟨s, hs, rfl⟩ := List.mem_map.1 hc
    exact h s hs)).2 i bss[i] (List.getElem?_eq_getElem hi)
  rw [hx, ← hx' y, Option.some.injEq]

/-! ## Concrete cases -/

/-- A LOST record cut short by its own header, a sample with a call chain, a COMM without a name that is not a whole one, and a TEXT_POKE. -/
def demoDamaged : List (List Byte) :=
  [[2, 0, 0, 0, 0, 0, 12, 0, 1, 2, 3, 4], demoHeldSample.encTaken .little demoHeldCfg [], [3, 0, 0, 0, 0, 0, 9, 0, 1],
    demoHeldPoke.encTaken .little demoHeldCfg []]

theorem demoDamaged_framed : ∀ b ∈ demoDamaged, 8 ≤ b.length ∧ sizeField demoHeldCfg b = b.length := by decide +kernel

theorem Settles.data {d : List Byte} {es : List ReadEvent} (hd : d ≠ []) (h : Settles es) : Settles (.data d :: es) := by
  cases d with
  | nil => exact absurd rfl hd
  | cons => exact h

/-- The portions of a reader: five bytes at a time, then the rest. -/
def demoDamagedScript : List ReadEvent := [.data (demoDamaged.flatten.take 5), .data (demoDamaged.flatten.drop 5)]

/-- `c99_damaged` for the sample between the damaged records. -/
example : ((visitMany pairVisitor 4 (Parser.new (⟨[], demoDamagedScript⟩ : BufReader) demoHeldCfg)).1.map seenAs)[1]? =
    some (.ok (demoHeldSample.body.valueTaken demoHeldCfg 0, demoHeldSample.metadata demoHeldCfg)) :=
  c99_damaged demoDamaged demoDamaged_framed demoDamagedScript (by decide +kernel)
    (.data (by decide +kernel) (.data (by decide +kernel) trivial)) (by decide +kernel) demoCfg_wf
    (Src.little _ _) 1 demoHeldSample [] rfl (by constructor <;> first | (intro h; revert h; decide +kernel) | decide +kernel) (fun h => (by cases h))

/-- As it comes out of the model: through a reader, in one piece of memory at an odd address (where the sample cannot be read, B2), and in two
pieces that meet within the frame of the call chain. The TEXT_POKE is read wrong through the reader (B7). -/
theorem c99_example :
    let seen : Except Fault (Record List × Metadata) → Option (List U64 × List Byte) := fun x => match x with
      | .ok (.sample s, _) => some (s.callchain.getD [], [])
      | .ok (.textPoke t, _) => some ([], t.newBytes)
      | _ => none
    ((visitMany pairVisitor 4 (Parser.new (⟨[], demoDamagedScript⟩ : BufReader) demoHeldCfg)).1.map fun x => seen (seenAs x)) =
      [none, some ([7], []), none, some ([], [])] ∧
    ((visitMany pairVisitor 4 (Parser.new (⟨[⟨1, demoDamaged.flatten⟩]⟩ : ChunkBuf) demoHeldCfg)).1.map fun x => seen (seenAs x)) =
      [none, none, none, some ([], [1, 2, 3])] ∧
    ((visitMany pairVisitor 4 (Parser.new (⟨[⟨1, demoDamaged.flatten.take 32⟩, ⟨8, demoDamaged.flatten.drop 32⟩]⟩ : ChunkBuf) demoHeldCfg)).1.map
      fun x => seen (seenAs x)) = [none, some ([7], []), none, some ([], [1, 2, 3])] := by decide +kernel

end Perf
